import Verif.Props.Address
import Verif.Props.Record
import Verif.Props.Header
import Verif.Model.Strings
/-!
# C63: the textual form of the addresses of a connection
-/

namespace TcpInfo
open Spec

/-- The 16 bytes that denote IPv4 address `a.b.c.d` in Go and in IPv6 (IPv4-mapped). -/
def mapped (a b c d : UInt8) : Bytes := List.replicate 10 0 ++ [0xff, 0xff, a, b, c, d]

theorem ipOf_v4 (a b c d : UInt8) : ipOf ([a, b, c, d] ++ List.replicate 12 0) = [a, b, c, d] := by
  simp [ipOf, isIpv6, to4, netIPv4, v4InV6Prefix]

/-- A field is an IPv4 address and zeros, or is taken as it is. -/
theorem ipOf_cases (b : Bytes) (h : b.length = 16) :
    (∃ x y z w, b = [x, y, z, w] ++ List.replicate 12 0 ∧ ipOf b = [x, y, z, w]) ∨ ((∃ i, 4 ≤ i ∧ i < 16 ∧ byte b i ≠ 0) ∧ ipOf b = b) := by
  cases h6 : isIpv6 b with
  | true =>
    refine Or.inr ⟨?_, by rw [ipOf, if_pos h6]⟩
    rw [isIpv6, List.any_eq_true] at h6
    obtain ⟨x, hx, hne⟩ := h6
    obtain ⟨i, hi⟩ := List.mem_iff_getElem?.1 hx
    rw [List.getElem?_drop] at hi
    have hlt : 4 + i < 16 := by
      by_cases hlt : 4 + i < 16
      · exact hlt
      · rw [List.getElem?_eq_none (by omega)] at hi; simp at hi
    refine ⟨4 + i, by omega, hlt, ?_⟩
    rw [byte, List.getD_eq_getElem?_getD, hi]
    simpa using hne
  | false =>
    left
    obtain ⟨x0, x1, x2, x3, x4, x5, x6, x7, x8, x9, xa, xb, xc, xd, xe, xf, rfl⟩ := explicit16 b h
    rw [isIpv6] at h6
    simp [List.any] at h6
    obtain ⟨rfl, rfl, rfl, rfl, rfl, rfl, rfl, rfl, rfl, rfl, rfl, rfl⟩ := h6
    exact ⟨x0, x1, x2, x3, rfl, ipOf_v4 x0 x1 x2 x3⟩

/-- C63. AF_INET: the text is the dotted decimal form of the address. -/
theorem C63_v4 (a b c d : UInt8) : ipString (ipOf ([a, b, c, d] ++ List.replicate 12 0)) = dotted a b c d := by
  rw [ipOf_v4, dotted_eq]
  rfl

/-- C63 (partial: the missing case are IPv6 addresses whose last 12 bytes are zero, see `C63_violated`). AF_INET6: the text is a text of the
address (and of no other, `C13_unambiguous`). -/
theorem C63_v6_partial (b : Bytes) (h : b.length = 16) (hz : ∃ i, 4 ≤ i ∧ i < 16 ∧ byte b i ≠ 0) : AddrText (ipString (ipOf b)) b := by
  rw [← parseIP_iff]
  rcases ipOf_cases b h with ⟨x, y, z, w, e, -⟩ | ⟨-, e⟩
  · obtain ⟨i, h1, h2, h3⟩ := hz
    refine absurd ?_ h3
    rw [e, byte, List.getD_eq_getElem?_getD, List.getElem?_append_right (by simpa using h1)]
    rw [List.getElem?_replicate]
    split <;> rfl
  · rw [e, parseIP_ipString b (Or.inr h), to16, if_neg (by omega)]

/-- C63. Which fields have the same text: equal ones, and an IPv4 address (of an AF_INET socket, or an IPv6 address with zeros behind) and the same address
IPv4-mapped; no others. -/
theorem C63_same_text (b1 b2 : Bytes) (h1 : b1.length = 16) (h2 : b2.length = 16) :
    ipString (ipOf b1) = ipString (ipOf b2) ↔
      b1 = b2 ∨ ∃ a b c d, (b1 = [a, b, c, d] ++ List.replicate 12 0 ∧ b2 = mapped a b c d) ∨ (b2 = [a, b, c, d] ++ List.replicate 12 0 ∧ b1 = mapped a b c d) := by
  have hp : ∀ b : Bytes, b.length = 16 → parseIP (ipString (ipOf b)) = some (to16 (ipOf b)) := by
    intro b hb
    refine parseIP_ipString _ ?_
    rcases ipOf_cases b hb with ⟨x, y, z, w, -, e⟩ | ⟨-, e⟩
    · rw [e]; exact Or.inl rfl
    · rw [e]; exact Or.inr hb
  constructor
  · intro he
    have he' : to16 (ipOf b1) = to16 (ipOf b2) := by
      have := hp b1 h1
      rw [he, hp b2 h2] at this
      exact (Option.some.inj this).symm
    rcases ipOf_cases b1 h1 with ⟨x, y, z, w, e1, i1⟩ | ⟨-, i1⟩ <;> rcases ipOf_cases b2 h2 with ⟨x', y', z', w', e2, i2⟩ | ⟨-, i2⟩
    · rw [i1, i2] at he'
      left
      have : [x, y, z, w] = [x', y', z', w'] := List.append_cancel_left he'
      rw [e1, e2, this]
    · have e : to16 b2 = b2 := by rw [to16, if_neg (by omega)]
      rw [i1, i2, e] at he'
      exact Or.inr ⟨x, y, z, w, Or.inl ⟨e1, he'.symm⟩⟩
    · have e : to16 b1 = b1 := by rw [to16, if_neg (by omega)]
      rw [i1, i2, e] at he'
      exact Or.inr ⟨x', y', z', w', Or.inr ⟨e2, he'⟩⟩
    · rw [i1, i2, to16, if_neg (by omega), to16, if_neg (by omega)] at he'
      exact Or.inl he'
  · have key : ∀ a b c d, ipString (ipOf ([a, b, c, d] ++ List.replicate 12 0)) = ipString (ipOf (mapped a b c d)) := by
      intro a b c d
      have e : ipOf (mapped a b c d) = mapped a b c d := by simp [ipOf, isIpv6, mapped]
      rw [ipOf_v4, e]
      rfl
    rintro (rfl | ⟨a, b, c, d, ⟨rfl, rfl⟩ | ⟨rfl, rfl⟩⟩)
    · rfl
    · exact key a b c d
    · exact (key a b c d).symm

/-- C63. The connection identifiers in events carry these texts for the source and destination field of the kernel's message. -/
theorem C63_sockid (m : DiagMsg) (rest : Bytes) (idm : InetDiagMsg) (h : parseIDM (m.wire ++ rest) = .ok idm) :
    idm.id.getSockID.srcIP.toList = ipString (ipOf m.src.val) ∧ idm.id.getSockID.dstIP.toList = ipString (ipOf m.dst.val)
      ∧ idm.id.getSockID.sport = m.sport ∧ idm.id.getSockID.dport = m.dport ∧ idm.id.getSockID.cookieUint64 = m.cookie := by
  obtain ⟨idm', h', ha⟩ := C02_parse_wire_partial m rest
  have e : idm = idm' := Res.ok.inj (h.symm.trans h')
  obtain ⟨-, -, -, -, a1, a2, a3, a4, -⟩ := ha
  refine ⟨?_, ?_, ?_, ?_, C03_cookie_roundtrip m rest idm h⟩
  · simp [LinuxSockID.getSockID, LinuxSockID.srcIP, e, a3]
  · simp [LinuxSockID.getSockID, LinuxSockID.dstIP, e, a4]
  · rw [e]; exact a1
  · rw [e]; exact a2

-- an event for the example header names these addresses
example : ∃ idm, parseIDM exampleMsg.wire = .ok idm ∧ idm.id.getSockID.srcIP = "2001:db8::1" ∧ idm.id.getSockID.dstIP = "2001:db8::2" := by
  refine ⟨_, parseIDM_ok (by decide), ?_, ?_⟩ <;> decide +kernel

/-- C63. In CSV output, too, an AF_INET address is in dotted decimal form and the text of any other address (partial as above: some non-zero byte among the last
12) reads back as the address. -/
theorem C63_csv_partial : (∀ a b c d, ipCSV ([a, b, c, d] ++ List.replicate 12 0) = dotted a b c d)
    ∧ ∀ b : Bytes, b.length = 16 → (∃ i, 4 ≤ i ∧ i < 16 ∧ byte b i ≠ 0) → AddrText (ipCSV b) b :=
  ⟨C63_v4, C63_v6_partial⟩

/-- C63 violated: the IPv6 address 2001:db8:: (zeros in the last 12 bytes; for instance a subnet-router anycast address) has the text of the IPv4 address
32.1.13.184. -/
theorem C63_violated : ∃ b : Bytes, b.length = 16 ∧ ipString (ipOf b) = "32.1.13.184".toList ∧ ¬ AddrText (ipString (ipOf b)) b :=
  ⟨[0x20, 1, 0xd, 0xb8] ++ List.replicate 12 0, by decide, by decide +kernel, by rw [← parseIP_iff]; decide +kernel⟩

example : ipString (ipOf ([0x20, 1, 0xd, 0xb8] ++ List.replicate 11 0 ++ [1])) = "2001:db8::1".toList := by decide +kernel
example : ipString (ipOf [0, 1, 0, 0, 0, 0, 0, 1, 0, 0, 0, 0, 0, 0, 0, 2]) = "1:0:0:1::2".toList := by decide +kernel
example : ipString (ipOf (mapped 8 8 4 4)) = "8.8.4.4".toList ∧ mapped 8 8 4 4 ≠ [8, 8, 4, 4] ++ List.replicate 12 0 := by decide +kernel

end TcpInfo
