import Verif.Model.Main
import Verif.Spec.Main
import Verif.Props.Record
import Verif.Props.SaverInput
/-!
# C67: the exclusion flags of the command
-/

namespace TcpInfo
open TcpInfo.Spec

theorem addDstIP_set (ex : ExcludeConfig) (d : List Char) :
    (addDstIP ex d).2.localConns = ex.localConns ∧ (addDstIP ex d).2.srcPorts = ex.srcPorts
    ∧ ∀ k, k ∈ (addDstIP ex d).2.dstIPs.getD [] ↔ (∃ ip, parseIP d = some ip ∧ k = dstField ip) ∨ k ∈ ex.dstIPs.getD [] := by
  unfold addDstIP
  cases h : parseIP d with
  | none => simp
  | some ip =>
    have hl := parseIP_length d ip h
    refine ⟨rfl, rfl, fun k => ?_⟩
    have hkey : (match to4 ip with
      | some _ => (ip.drop 12 ++ List.replicate 16 0).take 16
      | none => (ip ++ List.replicate 16 0).take 16) = dstField ip := by
      unfold dstField to4
      by_cases hp : ip.take 12 = List.replicate 10 0 ++ [0xff, 0xff]
      · have hp' : ip.take 12 = v4InV6Prefix := hp
        rw [if_neg (by omega), if_pos ⟨hl, hp'⟩, if_pos hp]
        simp only
        rw [List.take_append, List.take_of_length_le (by simp; omega)]
        simp [hl]
      · have hp' : ip.take 12 ≠ v4InV6Prefix := hp
        rw [if_neg (by omega), if_neg (by simp [hp']), if_neg hp]
        exact List.take_left' hl
    simp only [Option.getD_some, List.mem_cons, Option.some.injEq, exists_eq_left']
    rw [← hkey]
    exact Iff.rfl

theorem addDstIPs_set (ds : List (List Char)) (ex : ExcludeConfig) :
    (addDstIPs ds ex).localConns = ex.localConns ∧ (addDstIPs ds ex).srcPorts = ex.srcPorts
    ∧ ∀ k, k ∈ (addDstIPs ds ex).dstIPs.getD [] ↔ (∃ s ∈ ds, ∃ ip, parseIP s = some ip ∧ k = dstField ip) ∨ k ∈ ex.dstIPs.getD [] := by
  induction ds generalizing ex with
  | nil => simp [addDstIPs]
  | cons d ds ih =>
    obtain ⟨h1, h2, h3⟩ := ih (addDstIP ex d).2
    obtain ⟨g1, g2, g3⟩ := addDstIP_set ex d
    refine ⟨h1.trans g1, h2.trans g2, fun k => ?_⟩
    rw [addDstIPs, h3, g3]
    simp only [List.mem_cons, exists_eq_or_imp]
    grind

theorem addSrcPort_set (ex : ExcludeConfig) (p : List Char) :
    (addSrcPort ex p).2.localConns = ex.localConns ∧ (addSrcPort ex p).2.dstIPs = ex.dstIPs
    ∧ ∀ q, q ∈ (addSrcPort ex p).2.srcPorts.getD [] ↔ (∃ i, parseInt16 p = some i ∧ q = UInt16.ofInt i) ∨ q ∈ ex.srcPorts.getD [] := by
  unfold addSrcPort
  cases h : parseInt16 p <;> simp

theorem addSrcPorts_set (ps : List (List Char)) (ex : ExcludeConfig) :
    (addSrcPorts ps ex).localConns = ex.localConns ∧ (addSrcPorts ps ex).dstIPs = ex.dstIPs
    ∧ ∀ q, q ∈ (addSrcPorts ps ex).srcPorts.getD [] ↔ (∃ s ∈ ps, ∃ i, parseInt16 s = some i ∧ q = UInt16.ofInt i) ∨ q ∈ ex.srcPorts.getD [] := by
  induction ps generalizing ex with
  | nil => simp [addSrcPorts]
  | cons d ds ih =>
    obtain ⟨h1, h2, h3⟩ := ih (addSrcPort ex d).2
    obtain ⟨g1, g2, g3⟩ := addSrcPort_set ex d
    refine ⟨h1.trans g1, h2.trans g2, fun k => ?_⟩
    rw [addSrcPorts, h3, g3]
    simp only [List.mem_cons, exists_eq_or_imp]
    grind

/-- The excluded messages, in terms of what `strconv.ParseInt` and `net.ParseIP` make of the flags. -/
theorem excluded_flags (dstIPs srcPorts : List (List Char)) (m : DiagMsg) :
    Excluded ((excludeConfig dstIPs srcPorts).srcPorts.getD []) (excludeConfig dstIPs srcPorts).localConns ((excludeConfig dstIPs srcPorts).dstIPs.getD []) m
      ↔ LocalField m.src.val ∨ LocalField m.dst.val ∨ (∃ s ∈ srcPorts, ∃ i, parseInt16 s = some i ∧ m.sport = UInt16.ofInt i)
        ∨ ∃ s ∈ dstIPs, DstText s m := by
  obtain ⟨a1, a2, a3⟩ := addDstIPs_set dstIPs { localConns := true, srcPorts := none, dstIPs := none }
  obtain ⟨b1, b2, b3⟩ := addSrcPorts_set srcPorts (addDstIPs dstIPs { localConns := true, srcPorts := none, dstIPs := none })
  unfold Excluded excludeConfig
  rw [b1, a1, b2, b3, a2, a3]
  simp only [Option.getD_none, List.not_mem_nil, or_false, true_and, DstText, ← parseIP_iff]
  grind

theorem ofInt_natCast (p : Nat) (h : p < 32768) : UInt16.ofInt (p : Int) = UInt16.ofNat p := by
  simp [UInt16.ofInt, UInt16.ofNat]
  rw [Int.emod_eq_of_lt (by omega) (by omega)]
  simp

/-- The flags for which the command does what is asked: every text of a number is a port below 32768, or too large or too small for any port. -/
def GoodPorts (srcPorts : List (List Char)) : Prop :=
  ∀ s ∈ srcPorts, ∀ i, IntText s i → (0 ≤ i ∧ i < 32768) ∨ i < -32768 ∨ 65535 < i

theorem unwanted_iff (dstIPs srcPorts : List (List Char)) (hp : GoodPorts srcPorts) (m : DiagMsg) :
    Excluded ((excludeConfig dstIPs srcPorts).srcPorts.getD []) (excludeConfig dstIPs srcPorts).localConns ((excludeConfig dstIPs srcPorts).dstIPs.getD []) m
      ↔ Unwanted dstIPs srcPorts m := by
  rw [excluded_flags]
  have hlt := m.sport.toNat_lt
  have : (∃ s ∈ srcPorts, ∃ i, parseInt16 s = some i ∧ m.sport = UInt16.ofInt i) ↔ ∃ s ∈ srcPorts, PortText s m.sport.toNat := by
    constructor
    · rintro ⟨s, hs, i, hi, hm⟩
      obtain ⟨h1, h2, h3⟩ := (parseInt16_iff s i).1 hi
      have hg := hp s hs i h1
      obtain ⟨p, rfl⟩ : ∃ p : Nat, i = p := ⟨i.toNat, by omega⟩
      rw [ofInt_natCast p (by omega)] at hm
      have : m.sport.toNat = p := by rw [hm]; simp; omega
      exact ⟨s, hs, by omega, by rw [this]; exact h1⟩
    · rintro ⟨s, hs, -, h1⟩
      have hg := hp s hs _ h1
      refine ⟨s, hs, _, (parseInt16_iff s _).2 ⟨h1, by omega, by omega⟩, ?_⟩
      rw [ofInt_natCast _ (by omega)]; simp
  unfold Unwanted
  rw [this]

/-- C67. Exactly what the flags do, for all texts: left out are the messages with a local address, with a source port congruent modulo 65536 to a listed
number between -32768 and 32767, or with a listed destination. -/
theorem C67_exact (dstIPs srcPorts : List (List Char)) (msg : NetlinkMessage) :
    makeArchivalRecord msg (some (excludeConfig dstIPs srcPorts)) = .ok none ↔
      msg.header.type = 20 ∧ ∃ (m : DiagMsg) (rest : Bytes), msg.data = m.wire ++ rest
        ∧ (LocalField m.src.val ∨ LocalField m.dst.val
          ∨ (∃ s ∈ srcPorts, ∃ i, IntText s i ∧ -32768 ≤ i ∧ i ≤ 32767 ∧ (m.sport.toNat : Int) = i % 65536) ∨ ∃ s ∈ dstIPs, DstText s m) := by
  rw [C11_excluded_iff]
  have e : ∀ (m : DiagMsg) (i : Int), m.sport = UInt16.ofInt i ↔ (m.sport.toNat : Int) = i % 65536 := by
    intro m i
    have hm : 0 ≤ i % 65536 ∧ i % 65536 < 65536 := ⟨Int.emod_nonneg _ (by omega), Int.emod_lt_of_pos _ (by omega)⟩
    rw [← UInt16.toNat_inj]
    simp only [UInt16.ofInt, UInt16.toNat_ofNat']
    omega
  simp only [excluded_flags, parseInt16_iff, e, and_assoc]

/-- C67 (partial: listed ports are below 32768 or no port numbers, see `C67_violated_high_port` and `C67_violated_negative`). With the flags
`-exclude-dstip` and `-exclude-srcport`, exactly the messages about unwanted connections are left out; flags that cannot be converted have no effect on the
others. -/
theorem C67_flags_partial (dstIPs srcPorts : List (List Char)) (hp : GoodPorts srcPorts) (msg : NetlinkMessage) :
    makeArchivalRecord msg (some (excludeConfig dstIPs srcPorts)) = .ok none ↔
      msg.header.type = 20 ∧ ∃ (m : DiagMsg) (rest : Bytes), msg.data = m.wire ++ rest ∧ Unwanted dstIPs srcPorts m := by
  rw [C11_excluded_iff]
  simp only [unwanted_iff dstIPs srcPorts hp]

/-- C67. The order and the number of occurrences of the flags do not matter. -/
theorem C67_order (d1 d2 p1 p2 : List (List Char)) (hd : ∀ s, s ∈ d1 ↔ s ∈ d2) (hp : ∀ s, s ∈ p1 ↔ s ∈ p2) (msg : NetlinkMessage) :
    makeArchivalRecord msg (some (excludeConfig d1 p1)) = makeArchivalRecord msg (some (excludeConfig d2 p2)) := by
  have hiff : makeArchivalRecord msg (some (excludeConfig d1 p1)) = .ok none ↔ makeArchivalRecord msg (some (excludeConfig d2 p2)) = .ok none := by
    rw [C11_excluded_iff, C11_excluded_iff]
    simp only [excluded_flags, hd, hp]
  rcases (C11_otherwise_unaffected msg).2 (excludeConfig d1 p1) with h1 | h1 <;> rcases (C11_otherwise_unaffected msg).2 (excludeConfig d2 p2) with h2 | h2
  · rw [h1, h2]
  · rw [h1, hiff.1 h1]
  · rw [h2, hiff.2 h2]
  · rw [h1, h2]

/-- C67 (partial, as above), for the whole run of the saver: no record of an unwanted connection is written to any file, and a connection all of whose
messages are unwanted has no file and no event. -/
theorem C67_output_partial (env : Env) (dstIPs srcPorts : List (List Char)) (hp : GoodPorts srcPorts)
    (hex : env.exclude = some (excludeConfig dstIPs srcPorts)) (bs : List MessageBlock) (s : Saver) (h : runSaver env bs = some s) :
    (∀ r ∈ written s.trace, ∀ d : DiagMsg, r.rawIDM = some d.wire → ¬ Unwanted dstIPs srcPorts d)
    ∧ ∀ k : UInt64, (∀ b ∈ bs, ∀ x, some x ∈ b.v4Messages ++ b.v6Messages → ∀ (d : DiagMsg) (rest : Bytes), x.data = d.wire ++ rest → d.cookie = k →
        Unwanted dstIPs srcPorts d) → ¬ Mentioned (env.uuid k) s.trace := by
  constructor
  · intro r hr d hd hu
    exact C49_records env _ hex bs s h r hr d hd ((unwanted_iff dstIPs srcPorts hp d).2 hu)
  · intro k hk
    exact C49_no_output env _ hex bs s h k (fun b hb x hx d rest hd hc => (unwanted_iff dstIPs srcPorts hp d).2 (hk b hb x hx d rest hd hc))

/-- C67 violated: `-exclude-srcport=p` has no effect for any valid port `p` from 32768 on, whatever the other flags are. -/
theorem C67_violated_high_port (p : Nat) (h1 : 32768 ≤ p) (dstIPs srcPorts : List (List Char)) :
    excludeConfig dstIPs ((toString p).toList :: srcPorts) = excludeConfig dstIPs srcPorts := by
  unfold excludeConfig
  rw [addSrcPorts, C12_violated_high_port _ p h1]

/-- C67 violated: `-exclude-srcport=-1` is no port number but leaves out the connections from port 65535. -/
theorem C67_violated_negative (m : DiagMsg) (hm : m.sport = 65535) (nl : NetlinkMessage) (ht : nl.header.type = 20) (rest : Bytes)
    (hd : nl.data = m.wire ++ rest) : makeArchivalRecord nl (some (excludeConfig [] [['-', '1']])) = .ok none := by
  rw [C11_excluded_iff]
  refine ⟨ht, m, rest, hd, (excluded_flags [] [['-', '1']] m).2 (Or.inr (Or.inr (Or.inl ⟨['-', '1'], by simp, -1, by decide, ?_⟩)))⟩
  rw [hm]; decide

-- non-vacuity: good flags with a rejected one among them; the example message (ports 443 and 51234, not local) is left out by its port
theorem goodPorts_example : GoodPorts ["443".toList, "x".toList, "70000".toList] := by
  intro s hs i hi
  simp only [List.mem_cons, List.not_mem_nil, or_false] at hs
  rcases hs with rfl | rfl | rfl
  · have h := (parseInt16_iff "443".toList 443).1 (by decide)
    have := intText_inj h.1 hi
    omega
  · obtain ⟨n, ⟨-, h | ⟨t, e, -⟩⟩ | ⟨-, t, e, -⟩⟩ := hi
    · exact absurd (parseDigits_decText h).2 (by simp [parseDigits, digitVal, Char.isDigit])
    · exact absurd e (by simp)
    · exact absurd e (by simp)
  · have : IntText "70000".toList 70000 := ⟨70000, Or.inl ⟨rfl, Or.inl (parseDigits_iff.1 ⟨by decide, by decide⟩)⟩⟩
    have := intText_inj this hi
    omega

example : makeArchivalRecord exampleNl (some (excludeConfig [] ["443".toList, "x".toList, "70000".toList])) = .ok none := by decide +kernel
example : makeArchivalRecord exampleNl (some (excludeConfig ["nonsense".toList, "10.9.8.7".toList] ["80".toList])) ≠ .ok none := by decide +kernel

end TcpInfo
