import Verif.Lemmas.Bytes
/-!
# C01, C02, C03, C05: the fixed header of a diag message
-/

namespace TcpInfo
open Spec

/-- C01. A payload is split exactly at byte 72. -/
theorem C01_split_exact (data : Bytes) :
    (72 ≤ data.length → ∃ raw rest, splitInetDiagMsg data = some (raw, rest) ∧ raw ++ rest = data ∧ raw.length = 72)
    ∧ (data.length < 72 → splitInetDiagMsg data = none) := by
  constructor
  · intro h
    refine ⟨data.take 72, data.drop 72, ?_, by simp, by simp; omega⟩
    exact splitInetDiagMsg_ok h
  · intro h
    exact splitInetDiagMsg_short h

/-- C01. `Parse` succeeds exactly on 72 bytes or more, otherwise returns the parse error; it never panics. -/
theorem C01_parse_total (raw : Bytes) :
    (72 ≤ raw.length → ∃ m, parseIDM raw = .ok m) ∧ (raw.length < 72 → parseIDM raw = .err .parseFailed)
    ∧ parseIDM raw ≠ .panic := by
  refine ⟨fun h => ?_, fun h => ?_, ?_⟩
  · exact ⟨_, parseIDM_ok h⟩
  · exact parseIDM_short h
  · simp only [parseIDM]; split <;> simp

example : splitInetDiagMsg (List.replicate 73 7) = some (List.replicate 72 7, [7]) := by decide
example : splitInetDiagMsg (List.replicate 71 7) = none := by decide

/-- A parsed header `idm` carries exactly the fields of the kernel structure `m`, except that the bytes of the interface index are in the wrong order. -/
def Agrees (idm : InetDiagMsg) (m : DiagMsg) : Prop :=
  idm.family = m.family ∧ idm.state = m.state ∧ idm.timer = m.timer ∧ idm.retrans = m.retrans
  ∧ idm.id.sPort = m.sport ∧ idm.id.dPort = m.dport ∧ idm.id.src = m.src.val ∧ idm.id.dst = m.dst.val
  ∧ idm.id.interface = swapped m.iface ∧ idm.id.cookieVal = m.cookie
  ∧ idm.expires = m.expires ∧ idm.rqueue = m.rqueue ∧ idm.wqueue = m.wqueue ∧ idm.uid = m.uid ∧ idm.inode = m.inode

/-- C02 (partial: all fields but the interface index, see `C02_violated_interface`). Parsing the kernel's bytes gives every field of the kernel's
structure; the interface index comes with its bytes in reversed order. -/
theorem C02_parse_wire_partial (m : DiagMsg) (rest : Bytes) :
    ∃ idm, parseIDM (m.wire ++ rest) = .ok idm ∧ Agrees idm m := by
  obtain ⟨fam, st, tm, rt, sp, dp, ⟨src, hsrc⟩, ⟨dst, hdst⟩, ifc, ck, ex, rq, wq, uid, ino⟩ := m
  have hlen : 72 ≤ (DiagMsg.wire ⟨fam, st, tm, rt, sp, dp, ⟨src, hsrc⟩, ⟨dst, hdst⟩, ifc, ck, ex, rq, wq, uid, ino⟩
      ++ rest).length := by
    simp [DiagMsg.wire, hsrc, hdst]; omega
  refine ⟨_, parseIDM_ok hlen, ?_⟩
  simp only [Agrees, parseSockID_sub, LinuxSockID.sPort, LinuxSockID.dPort, LinuxSockID.interface, LinuxSockID.cookieVal]
  simp only [DiagMsg.wire, List.append_assoc, u32At, u8At]
  refine ⟨rfl, rfl, rfl, rfl, ?_⟩
  simp only [sub_append_skip, sub_append_here, List.length_singleton, be_length, le_length, hsrc, hdst,
    Nat.reduceLeDiff, Nat.reduceSub, leNat_le, beNat_be]
  have := sp.toNat_lt; have := dp.toNat_lt; have := ifc.toNat_lt; have := ck.toNat_lt; have := ex.toNat_lt
  have := rq.toNat_lt; have := wq.toNat_lt; have := uid.toNat_lt; have := ino.toNat_lt
  refine ⟨?_, ?_, trivial, trivial, rfl, ?_, ?_, ?_, ?_, ?_, ?_⟩ <;>
    (rw [Nat.mod_eq_of_lt (by omega)]; simp)

/-- C02. An interface index of 0 (socket not bound to an interface) is reported as 0. -/
theorem C02_interface_zero (m : DiagMsg) (rest : Bytes) (idm : InetDiagMsg) (h : parseIDM (m.wire ++ rest) = .ok idm) :
    idm.id.interface = 0 ↔ m.iface = 0 := by
  obtain ⟨idm', h', ha⟩ := C02_parse_wire_partial m rest
  have e : idm = idm' := Res.ok.inj (h.symm.trans h')
  rw [e, ha.2.2.2.2.2.2.2.2.1]
  have hv : m.iface.toNat < 256 ^ 4 := m.iface.toNat_lt
  constructor
  · intro h0
    have h1 : beNat (le 4 m.iface.toNat) = 0 := by
      have := congrArg UInt32.toNat h0
      simp only [swapped, UInt32.toNat_ofNat', UInt32.toNat_zero] at this
      have hb : beNat (le 4 m.iface.toNat) < 2 ^ 32 := by simp [beNat, le]; omega
      omega
    have h2 : m.iface.toNat = 0 := by simp [beNat, le] at h1; omega
    exact UInt32.toNat.inj (by simpa using h2)
  · intro h0; rw [h0]; decide

/-- C02. Every 72-byte message is the kernel encoding of the fields it parses to: nothing is lost. -/
theorem C02_wire_parse (raw : Bytes) (h : raw.length = 72) (idm : InetDiagMsg) (hp : parseIDM raw = .ok idm) :
    ∃ m : DiagMsg, m.wire = raw ∧ Agrees idm m := by
  rw [parseIDM_ok (by omega)] at hp
  injection hp with hp
  refine ⟨{ family := idm.family, state := idm.state, timer := idm.timer, retrans := idm.retrans,
            sport := idm.id.sPort, dport := idm.id.dPort,
            src := ⟨sub 8 16 raw, sub_length _ _ _ (by omega)⟩, dst := ⟨sub 24 16 raw, sub_length _ _ _ (by omega)⟩,
            iface := UInt32.ofNat (leNat (sub 40 4 raw)), cookie := idm.id.cookieVal, expires := idm.expires, rqueue := idm.rqueue,
            wqueue := idm.wqueue, uid := idm.uid, inode := idm.inode }, ?_, ?_⟩
  · subst hp
    simp only [DiagMsg.wire, parseSockID_sub, LinuxSockID.sPort, LinuxSockID.dPort, LinuxSockID.interface,
      LinuxSockID.cookieVal, u32At]
    rw [be_u16 _ (sub_length _ _ _ (by omega)), be_u16 _ (sub_length _ _ _ (by omega)), le_u32 _ (sub_length _ _ _ (by omega)),
      le_u64 _ (sub_length _ _ _ (by omega)), le_u32 _ (sub_length _ _ _ (by omega)), le_u32 _ (sub_length _ _ _ (by omega)),
      le_u32 _ (sub_length _ _ _ (by omega)), le_u32 _ (sub_length _ _ _ (by omega)), le_u32 _ (sub_length _ _ _ (by omega))]
    rw [singleton_u8At 0 raw (by omega), singleton_u8At 1 raw (by omega), singleton_u8At 2 raw (by omega),
      singleton_u8At 3 raw (by omega)]
    have h0 : sub 0 1 raw = raw.take 1 := by simp [sub]
    rw [h0]
    simp only [take_append_sub]
    exact List.take_of_length_le (by omega)
  · subst hp
    simp only [Agrees, parseSockID_sub, LinuxSockID.interface, swapped, le_u32 _ (sub_length 40 4 raw (by omega))]
    simp

/-- A concrete IPv6 header used in the examples: established, ports 443/51000, cookie above 2^63. -/
def exampleMsg : DiagMsg :=
  { family := 10, state := 1, timer := 2, retrans := 0, sport := 443, dport := 51000
    src := ⟨[0x20,1,0xd,0xb8,0,0,0,0,0,0,0,0,0,0,0,1], rfl⟩, dst := ⟨[0x20,1,0xd,0xb8,0,0,0,0,0,0,0,0,0,0,0,2], rfl⟩
    iface := 3, cookie := 0xfedcba9876543210, expires := 10, rqueue := 0, wqueue := 7, uid := 1000, inode := 123456 }

/-- C02 violated: the interface index, which the kernel gives in the host's byte order, is read as if it were in network byte order: a socket bound to
interface 3 is reported as bound to interface 50331648. -/
theorem C02_violated_interface : ∃ m idm, parseIDM (DiagMsg.wire m) = .ok idm ∧ m.iface = 3 ∧ idm.id.interface = 50331648
    ∧ idm.id.getSockID.iface = 50331648 :=
  ⟨exampleMsg, _, parseIDM_ok (by decide), rfl, by decide, by decide⟩

example : ∃ idm, parseIDM (exampleMsg.wire ++ [1, 2, 3]) = .ok idm ∧ idm.id.sPort = 443 ∧ idm.id.cookieVal = 0xfedcba9876543210 := by
  obtain ⟨idm, h, h1⟩ := C02_parse_wire_partial exampleMsg [1, 2, 3]
  exact ⟨idm, h, h1.2.2.2.2.1, h1.2.2.2.2.2.2.2.2.2.1⟩
example : exampleMsg.wire.length = 72 ∧ ∃ idm, parseIDM exampleMsg.wire = .ok idm := by
  refine ⟨by decide, _, parseIDM_ok (by decide)⟩

/-- C03. The kernel's cookie survives the conversion to the signed field and back. -/
theorem C03_cookie_roundtrip (m : DiagMsg) (rest : Bytes) (idm : InetDiagMsg) (h : parseIDM (m.wire ++ rest) = .ok idm) :
    idm.id.getSockID.cookieUint64 = m.cookie := by
  obtain ⟨idm', h', ha⟩ := C02_parse_wire_partial m rest
  have e : idm = idm' := Res.ok.inj (h.symm.trans h')
  have hc : idm.id.cookieVal = m.cookie := by rw [e]; exact ha.2.2.2.2.2.2.2.2.2.1
  rw [SockID.cookieUint64, LinuxSockID.getSockID, hc]
  exact UInt64.toUInt64_toInt64 _

/-- C03. Sockets with different cookies have different `SockID`s. -/
theorem C03_cookie_injective (m1 m2 : DiagMsg) (i1 i2 : InetDiagMsg) (h1 : parseIDM m1.wire = .ok i1) (h2 : parseIDM m2.wire = .ok i2)
    (h : m1.cookie ≠ m2.cookie) : i1.id.getSockID ≠ i2.id.getSockID := by
  intro he
  apply h
  rw [← C03_cookie_roundtrip m1 [] i1 (by simpa using h1), ← C03_cookie_roundtrip m2 [] i2 (by simpa using h2), he]

example : ∃ i1 i2, parseIDM exampleMsg.wire = .ok i1 ∧ parseIDM { exampleMsg with cookie := 5 }.wire = .ok i2
    ∧ i1.id.getSockID.cookie < 0 ∧ 0 < i2.id.getSockID.cookie := by
  refine ⟨_, _, parseIDM_ok (by decide), parseIDM_ok (by decide), by decide, by decide⟩

/-! ## C05 -/

theorem splice_length (b : Bytes) (off : Nat) (v : Bytes) (h : off + v.length ≤ b.length) :
    (splice b off v).length = b.length := by
  simp [splice]; omega

theorem getElem?_splice (b : Bytes) (off : Nat) (v : Bytes) (h : off + v.length ≤ b.length) (i : Nat) :
    (splice b off v)[i]? = if off ≤ i ∧ i < off + v.length then v[i - off]? else b[i]? := by
  have hl : (b.take off).length = off := by simp; omega
  simp only [splice]
  by_cases h1 : i < off
  · rw [if_neg (by omega), List.append_assoc, List.getElem?_append_left (by omega)]
    simp [List.getElem?_take, h1]
  · by_cases h2 : i < off + v.length
    · rw [if_pos (by omega), List.append_assoc, List.getElem?_append_right (by omega), hl,
        List.getElem?_append_left (by omega)]
    · rw [if_neg (by omega), List.getElem?_append_right (by simp; omega), List.getElem?_drop]
      congr 1; simp; omega

theorem sub_splice_same (b : Bytes) (off : Nat) (v : Bytes) (h : off + v.length ≤ b.length) :
    sub off v.length (splice b off v) = v := by
  apply List.ext_getElem?
  intro i
  rw [getElem?_sub, getElem?_splice _ _ _ h]
  by_cases hi : i < v.length
  · rw [if_pos hi, if_pos (by omega)]; congr 1; omega
  · rw [if_neg hi]; simp; omega

theorem sub_splice_other (b : Bytes) (off : Nat) (v : Bytes) (h : off + v.length ≤ b.length) (o n : Nat)
    (hd : o + n ≤ off ∨ off + v.length ≤ o) : sub o n (splice b off v) = sub o n b := by
  apply List.ext_getElem?
  intro i
  rw [getElem?_sub, getElem?_sub, getElem?_splice _ _ _ h]
  by_cases hi : i < n
  · rw [if_pos hi, if_pos hi, if_neg (by omega)]
  · rw [if_neg hi, if_neg hi]

theorem anonymizeRaw_v6 (anon : Anonymizer) {raw : Bytes} (h : 72 ≤ raw.length) (h6 : byte raw 0 = 10) :
    anonymizeRaw anon raw = (none, splice (splice raw 8 (anon.f (sub 8 16 raw))) 24
                (anon.f (sub 24 16 (splice raw 8 (anon.f (sub 8 16 raw)))))) := by
  rw [byte] at h6
  unfold anonymizeRaw
  rw [parseIDM_ok h]
  exact if_pos h6

theorem anonymizeRaw_v4 (anon : Anonymizer) {raw : Bytes} (h : 72 ≤ raw.length) (h4 : byte raw 0 = 2) :
    anonymizeRaw anon raw = (none, splice (splice raw 8 (anon.f (sub 8 4 raw))) 24
                (anon.f (sub 24 4 (splice raw 8 (anon.f (sub 8 4 raw)))))) := by
  rw [byte] at h4
  unfold anonymizeRaw
  rw [parseIDM_ok h]
  have h6 : ¬ (u8At 0 raw = AF_INET6) := by rw [u8At, h4]; decide
  exact (if_neg h6).trans (if_pos h4)

theorem anonymizeRaw_other (anon : Anonymizer) {raw : Bytes} (h : 72 ≤ raw.length) (h6 : byte raw 0 ≠ 10) (h4 : byte raw 0 ≠ 2) :
    anonymizeRaw anon raw = (some .unknownAF, raw) := by
  unfold anonymizeRaw
  rw [parseIDM_ok h]
  exact (if_neg h6).trans (if_neg h4)

/-- Number of address bytes the anonymizer may touch for an address family, `none` for unknown families. -/
def Spec.addrWidth (family : UInt8) : Option Nat := if family = 10 then some 16 else if family = 2 then some 4 else none

/-- C05. Success: exactly the two address fields (at 8 and 24) are replaced by the anonymizer's output. -/
theorem C05_anonymize_exact (anon : Anonymizer) (raw : Bytes) (h : 72 ≤ raw.length) (w : Nat)
    (hw : addrWidth (byte raw 0) = some w) :
    ∃ raw', anonymizeRaw anon raw = (none, raw') ∧ raw'.length = raw.length
      ∧ sub 8 w raw' = anon.f (sub 8 w raw) ∧ sub 24 w raw' = anon.f (sub 24 w raw)
      ∧ ∀ i, ¬ (8 ≤ i ∧ i < 8 + w) → ¬ (24 ≤ i ∧ i < 24 + w) → raw'[i]? = raw[i]? := by
  have key : ∀ w ≤ 16, let r1 := splice raw 8 (anon.f (sub 8 w raw))
      let r2 := splice r1 24 (anon.f (sub 24 w r1))
      r2.length = raw.length
      ∧ sub 8 w r2 = anon.f (sub 8 w raw) ∧ sub 24 w r2 = anon.f (sub 24 w raw)
      ∧ ∀ i, ¬ (8 ≤ i ∧ i < 8 + w) → ¬ (24 ≤ i ∧ i < 24 + w) → r2[i]? = raw[i]? := by
    intro w hw16
    intro r1 r2
    have hl1 : (anon.f (sub 8 w raw)).length = w := by rw [anon.len, sub_length _ _ _ (by omega)]
    have e1 : r1.length = raw.length := splice_length _ _ _ (by omega)
    have hl2 : (anon.f (sub 24 w r1)).length = w := by rw [anon.len, sub_length _ _ _ (by omega)]
    have e2 : r2.length = r1.length := splice_length _ _ _ (by omega)
    have s1 : sub 24 w r1 = sub 24 w raw := sub_splice_other _ _ _ (by omega) _ _ (by omega)
    refine ⟨by omega, ?_, ?_, ?_⟩
    · rw [show sub 8 w r2 = sub 8 w r1 from sub_splice_other _ _ _ (by omega) _ _ (by omega)]
      have := sub_splice_same raw 8 (anon.f (sub 8 w raw)) (by omega)
      rwa [hl1] at this
    · have := sub_splice_same r1 24 (anon.f (sub 24 w r1)) (by omega)
      rw [hl2] at this
      rw [← s1]; exact this
    · intro i h1 h2
      rw [show r2[i]? = r1[i]? by
        show (splice r1 24 _)[i]? = _
        rw [getElem?_splice _ _ _ (by omega), if_neg (by omega)]]
      show (splice raw 8 _)[i]? = _
      rw [getElem?_splice _ _ _ (by omega), if_neg (by omega)]
  by_cases h6 : byte raw 0 = 10
  · rw [anonymizeRaw_v6 anon h h6]
    rw [addrWidth, if_pos h6] at hw
    injection hw with hw; subst hw
    exact ⟨_, rfl, key 16 (by omega)⟩
  · by_cases h4 : byte raw 0 = 2
    · rw [anonymizeRaw_v4 anon h h4]
      rw [addrWidth, if_neg h6, if_pos h4] at hw
      injection hw with hw; subst hw
      exact ⟨_, rfl, key 4 (by omega)⟩
    · rw [addrWidth, if_neg h6, if_neg h4] at hw; simp at hw

/-- C05. Failure: exactly for short messages and unknown families, and then nothing changes. -/
theorem C05_anonymize_error (anon : Anonymizer) (raw : Bytes) :
    ((anonymizeRaw anon raw).1 ≠ none ↔ (raw.length < 72 ∨ addrWidth (byte raw 0) = none))
    ∧ ((anonymizeRaw anon raw).1 ≠ none → (anonymizeRaw anon raw).2 = raw) := by
  by_cases hs : raw.length < 72
  · simp [anonymizeRaw, parseIDM_short hs, hs]
  · have hl : 72 ≤ raw.length := by omega
    by_cases h6 : byte raw 0 = 10
    · rw [anonymizeRaw_v6 anon hl h6]; simp [hs, addrWidth, h6]
    · by_cases h4 : byte raw 0 = 2
      · rw [anonymizeRaw_v4 anon hl h4]; simp [hs, addrWidth, h4]
      · rw [anonymizeRaw_other anon hl h6 h4]; simp [addrWidth, h4, h6]

/-- C05. In particular cookie, ports, interface, state and family are untouched. -/
theorem C05_anonymize_keeps_identity (anon : Anonymizer) (raw : Bytes) (m m' : InetDiagMsg) (h : parseIDM raw = .ok m)
    (h' : parseIDM (anonymizeRaw anon raw).2 = .ok m') :
    m' = { m with id := { m.id with src := m'.id.src, dst := m'.id.dst } } := by
  have hl : 72 ≤ raw.length := by
    by_cases hs : raw.length < 72
    · rw [parseIDM_short hs] at h; simp at h
    · omega
  by_cases he : (anonymizeRaw anon raw).1 ≠ none
  · rw [(C05_anonymize_error anon raw).2 he, h] at h'
    injection h' with h'; subst h'; rfl
  · have hw : ∃ w, addrWidth (byte raw 0) = some w := by
      cases hw : addrWidth (byte raw 0) with
      | some w => exact ⟨w, rfl⟩
      | none => exact absurd ((C05_anonymize_error anon raw).1.2 (Or.inr hw)) he
    obtain ⟨w, hw⟩ := hw
    have hw16 : w ≤ 16 := by
      simp only [addrWidth] at hw
      split at hw
      · injection hw with hw; omega
      · split at hw
        · injection hw with hw; omega
        · simp at hw
    obtain ⟨raw', e, hlen, -, -, hf⟩ := C05_anonymize_exact anon raw hl w hw
    rw [e] at h'
    simp only at h'
    rw [parseIDM_ok hl] at h
    rw [parseIDM_ok (by omega)] at h'
    injection h with h; injection h' with h'
    subst h; subst h'
    have hsub : ∀ o n, (o + n ≤ 8 ∨ 24 + 16 ≤ o) → sub o n raw' = sub o n raw := by
      intro o n ho
      apply List.ext_getElem?
      intro i
      rw [getElem?_sub, getElem?_sub]
      by_cases hi : i < n
      · rw [if_pos hi, if_pos hi, hf _ (by omega) (by omega)]
      · rw [if_neg hi, if_neg hi]
    have hu8 : ∀ o, o < 8 → u8At o raw' = u8At o raw := by
      intro o ho
      simp only [u8At, List.getD_eq_getElem?_getD, hf o (by omega) (by omega)]
    simp only [parseSockID_sub, u32At]
    rw [hu8 0 (by omega), hu8 1 (by omega), hu8 2 (by omega), hu8 3 (by omega),
      hsub 4 2 (by omega), hsub 6 2 (by omega), hsub 40 4 (by omega), hsub 44 8 (by omega),
      hsub 52 4 (by omega), hsub 56 4 (by omega), hsub 60 4 (by omega), hsub 64 4 (by omega), hsub 68 4 (by omega)]

/-- Example anonymizer: zero the last byte. -/
def zeroLast : Anonymizer where
  f b := b.take (b.length - 1) ++ (b.drop (b.length - 1)).map (fun _ => 0)
  len b := by simp

example : addrWidth (byte exampleMsg.wire 0) = some 16 ∧ (anonymizeRaw zeroLast exampleMsg.wire).1 = none
    ∧ (anonymizeRaw zeroLast exampleMsg.wire).2 ≠ exampleMsg.wire := by decide

end TcpInfo
