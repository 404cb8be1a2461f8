import Verif.Lemmas.Bytes
import Verif.Model.Netlink
/-!
# C04: which connections count as local
-/

namespace TcpInfo
open Spec

set_option maxRecDepth 8000 in
theorem and_f0_eq (a : UInt8) : (a &&& 0xf0 == 0xe0) = true ↔ (224 ≤ a.toNat ∧ a.toNat ≤ 239) := by
  have h : ∀ x : Fin 256, (UInt8.ofNat x.val &&& 0xf0 == 0xe0) = true ↔ (224 ≤ x.val ∧ x.val ≤ 239) := by decide
  have := h ⟨a.toNat, a.toNat_lt⟩
  simpa using this

set_option maxRecDepth 8000 in
theorem and_c0_eq (a : UInt8) : (a &&& 0xc0 == 0x80) = true ↔ (0x80 ≤ a.toNat ∧ a.toNat ≤ 0xbf) := by
  have h : ∀ x : Fin 256, (UInt8.ofNat x.val &&& 0xc0 == 0x80) = true ↔ (0x80 ≤ x.val ∧ x.val ≤ 0xbf) := by decide
  have := h ⟨a.toNat, a.toNat_lt⟩
  simpa using this

theorem isLocal_four (a b c d : UInt8) : isLocal [a, b, c, d] = true ↔ LocalV4 a b c d := by
  simp only [isLocal, isLoopback, isLinkLocalUnicast, isMulticast, isUnspecified, to4, ipEqual, ipv4zero, netIPv4,
    v4InV6Prefix, ipv6unspecified, LocalV4, Bool.or_eq_true]
  have := and_f0_eq a
  simp at this
  simp [this]
  constructor
  · rintro (((h | h) | h) | h) <;> simp_all
  · rintro (h | h | h | h) <;> simp_all

/-- C04. An AF_INET address (4 bytes, then 12 zero bytes) is local exactly as IPv4 says. -/
theorem C04_local_v4 (a b c d : UInt8) :
    isLocal (ipOf ([a, b, c, d] ++ List.replicate 12 0)) = true ↔ LocalV4 a b c d := by
  have : ipOf ([a, b, c, d] ++ List.replicate 12 0) = [a, b, c, d] := by
    simp [ipOf, isIpv6, to4, netIPv4, v4InV6Prefix]
  rw [this, isLocal_four]

theorem explicit16 (b : Bytes) (h : b.length = 16) : ∃ x0 x1 x2 x3 x4 x5 x6 x7 x8 x9 xa xb xc xd xe xf : UInt8,
    b = [x0, x1, x2, x3, x4, x5, x6, x7, x8, x9, xa, xb, xc, xd, xe, xf] := by
  rcases b with _|⟨x0, _|⟨x1, _|⟨x2, _|⟨x3, _|⟨x4, _|⟨x5, _|⟨x6, _|⟨x7, _|⟨x8, _|⟨x9, _|⟨xa, _|⟨xb, _|⟨xc, _|⟨xd, _|⟨xe, _|⟨xf, _|⟨y, t⟩⟩⟩⟩⟩⟩⟩⟩⟩⟩⟩⟩⟩⟩⟩⟩⟩ <;> simp at h
  exact ⟨_, _, _, _, _, _, _, _, _, _, _, _, _, _, _, _, rfl⟩

theorem isLocal_sixteen (b : Bytes) (h : b.length = 16) : isLocal b = true ↔ LocalV6 b := by
  obtain ⟨x0, x1, x2, x3, x4, x5, x6, x7, x8, x9, xa, xb, xc, xd, xe, xf, rfl⟩ := explicit16 b h
  have h1 := and_f0_eq xc
  have h2 := and_c0_eq x1
  simp at h1 h2
  simp only [isLocal, isLoopback, isLinkLocalUnicast, isMulticast, isUnspecified, to4, ipEqual, ipv4zero, netIPv4,
    v4InV6Prefix, ipv6unspecified, ipv6loopback, LocalV6, LocalV4, byte, Bool.or_eq_true]
  by_cases hm : x0 = 0 ∧ x1 = 0 ∧ x2 = 0 ∧ x3 = 0 ∧ x4 = 0 ∧ x5 = 0 ∧ x6 = 0 ∧ x7 = 0 ∧ x8 = 0 ∧ x9 = 0 ∧ xa = 255 ∧ xb = 255
  · obtain ⟨rfl, rfl, rfl, rfl, rfl, rfl, rfl, rfl, rfl, rfl, rfl, rfl⟩ := hm
    simp [h1, List.replicate]
    constructor
    · rintro (((h | h) | h) | h) <;> simp_all
    · rintro (h | h | h | h) <;> simp_all
  · have hm' : ¬ ([x0, x1, x2, x3, x4, x5, x6, x7, x8, x9, xa, xb] = [0,0,0,0,0,0,0,0,0,0,0xff,0xff]) := by simpa using hm
    have hm'' : ¬ ([x0, x1, x2, x3, x4, x5, x6, x7, x8, x9, xa, xb, xc, xd, xe, xf] = [0,0,0,0,0,0,0,0,0,0,0xff,0xff,0,0,0,0]) := by
      intro hh; apply hm; simp at hh; simp [hh]
    simp only [List.length_cons, List.length_nil, List.take, List.replicate, Nat.reduceAdd, reduceIte, hm', List.cons_append,
      List.nil_append, and_false, beq_iff_eq]
    simp only [List.getD_cons_zero, List.getD_cons_succ, hm'', false_or, or_false, false_and, Nat.reduceEqDiff, reduceIte,
      Bool.and_eq_true, beq_iff_eq, h2, true_and]
    constructor
    · rintro (((h | h) | h) | h) <;> simp_all
    · rintro (h | h | h | h) <;> simp_all

/-- C04 (partial: the missing case are IPv6 addresses whose last 12 bytes are zero, see `C04_violated_*`). An AF_INET6 address with
some non-zero byte among the last 12 is local exactly as IPv6 says, IPv4-mapped addresses included. -/
theorem C04_local_v6_partial (b : Bytes) (h : b.length = 16) (hz : ∃ i, 4 ≤ i ∧ i < 16 ∧ byte b i ≠ 0) :
    isLocal (ipOf b) = true ↔ LocalV6 b := by
  have : ipOf b = b := by
    have h6 : isIpv6 b = true := by
      obtain ⟨i, h4, h16, hne⟩ := hz
      rw [isIpv6, List.any_eq_true]
      refine ⟨byte b i, ?_, by simpa using hne⟩
      rw [List.mem_iff_getElem?]
      refine ⟨i - 4, ?_⟩
      rw [List.getElem?_drop, byte, List.getD_eq_getElem?_getD, show 4 + (i - 4) = i by omega,
        List.getElem?_eq_getElem (by omega)]
      rfl
    rw [ipOf, if_pos h6]
  rw [this, isLocal_sixteen b h]

/-- C04. What happens in the missing case, for completeness: the address is judged as if it were the IPv4 address in its first four bytes
(which is right for `::`). -/
theorem C04_v6_zero_tail (a b c d : UInt8) :
    isLocal (ipOf ([a, b, c, d] ++ List.replicate 12 0)) = true ↔ LocalV4 a b c d := C04_local_v4 a b c d

/-- C04 violated: the multicast address ff02:: (all last 12 bytes zero) of an AF_INET6 socket is not classified as local. -/
theorem C04_violated_missed : ∃ b : Bytes, b.length = 16 ∧ LocalV6 b ∧ isLocal (ipOf b) = false :=
  ⟨[0xff, 2] ++ List.replicate 14 0, by decide, Or.inr (Or.inr (Or.inr (Or.inl (by decide)))), by decide⟩

/-- C04 violated: the global unicast-space address 7f00:: of an AF_INET6 socket is classified as loopback. -/
theorem C04_violated_spurious : ∃ b : Bytes, b.length = 16 ∧ ¬ LocalV6 b ∧ isLocal (ipOf b) = true :=
  ⟨[0x7f] ++ List.replicate 15 0, by decide, by unfold LocalV6 LocalV4; decide, by decide⟩

example : isLocal (ipOf ([127, 0, 0, 1] ++ List.replicate 12 0)) = true := by decide
example : isLocal (ipOf ([8, 8, 8, 8] ++ List.replicate 12 0)) = false := by decide
example : (∃ i, 4 ≤ i ∧ i < 16 ∧ byte (List.replicate 15 0 ++ [1]) i ≠ 0) ∧ isLocal (ipOf (List.replicate 15 0 ++ [1])) = true :=
  ⟨⟨15, by decide⟩, by decide⟩

end TcpInfo
