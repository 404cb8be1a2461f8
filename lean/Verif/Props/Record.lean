import Verif.Lemmas.Indexing
import Verif.Lemmas.AddrText
import Verif.Lemmas.NumText
import Verif.Lemmas.Record
/-!
# C10, C11, C12, C13, C18, C19: records and exclusion
-/

namespace TcpInfo
open Spec

/-- C10. Every successfully built record: raw header = first 72 bytes; the attribute table has 1 + min(largest type, 38) entries and
entry `t` is the last attribute of type `t` of the message, nil (`none`) if there is none. -/
theorem C10_table (msg : NetlinkMessage) (ex : Option ExcludeConfig) (r : ArchivalRecord)
    (h : makeArchivalRecord msg ex = .ok (some r)) :
    ∃ (hdr : Bytes) (l : List (Attr × Bytes)) (rest : Bytes) (maxT : Nat) (tbl : List (Option GoSlice)),
      msg.data = hdr ++ attrsWire l ++ rest ∧ hdr.length = 72 ∧ rest.length < 4 ∧ (∀ p ∈ l, GoodPad p.1 p.2)
      ∧ r.rawIDM = some hdr ∧ r.metadata = none ∧ r.attributes = some tbl
      ∧ IsMaxType maxT (l.map (·.1)) ∧ tbl.length = 1 + min maxT 38
      ∧ ∀ t, t < tbl.length → ∃ e, tbl[t]? = some e ∧ e.map GoSlice.val = lastOf t (l.map (·.1)) := by
  obtain ⟨-, hl, hmk⟩ := makeArchivalRecord_some h
  obtain ⟨l, rest, hd, hg, hr⟩ := makeRecord_some hmk
  obtain ⟨m, hm, tbl, htl, hok, htbl⟩ := makeRecord_ok (msg.data.take 72) l hg rest msg.spare hr
  rw [hd, hok] at hmk
  injection hmk with hmk; injection hmk with hmk
  subst hmk
  refine ⟨msg.data.take 72, l, rest, m, tbl, ?_, by simp; omega, hr, fun p hp => (hg p hp).2, rfl, rfl, rfl, hm, htl, htbl⟩
  rw [List.append_assoc, ← hd, List.take_append_drop]

/-- C10. Conversely a type-20 message with a complete header and well-formed attributes always gives a record when there is no exclusion. -/
theorem C10_complete (msg : NetlinkMessage) (hdr : Bytes) (l : List (Attr × Bytes)) (rest : Bytes)
    (ht : msg.header.type = 20) (hd : msg.data = hdr ++ attrsWire l ++ rest) (hh : hdr.length = 72) (hr : rest.length < 4)
    (hlen : ∀ p ∈ l, p.1.value.length ≤ 65531) (hpad : ∀ p ∈ l, GoodPad p.1 p.2) :
    ∃ r, makeArchivalRecord msg none = .ok (some r) := by
  have hl : 72 ≤ msg.data.length := by rw [hd]; simp; omega
  have hg : ∀ p ∈ l, GoodAttr p := fun p hp => ⟨hlen p hp, hpad p hp⟩
  obtain ⟨m, -, tbl, -, hok, -⟩ := makeRecord_ok (msg.data.take 72) l hg rest msg.spare hr
  have : msg.data.drop 72 = attrsWire l ++ rest := by rw [hd, List.append_assoc, List.drop_left' hh]
  simp only [makeArchivalRecord, ht, splitInetDiagMsg_ok hl, this, hok, ne_eq, not_true_eq_false, if_false]
  exact ⟨_, rfl⟩

/-- A message with header `exampleMsg` and the two attributes of `exampleAttrs` (types 4 and 8). -/
def exampleNl : NetlinkMessage :=
  { header := { len := 0, type := 20, flags := 2, seq := 1, pid := 1 }, data := exampleMsg.wire ++ attrsWire exampleAttrs ++ [] }

example : ∃ r, makeArchivalRecord exampleNl none = .ok (some r) :=
  C10_complete exampleNl exampleMsg.wire exampleAttrs [] rfl rfl (by decide) (by decide)
    (by simp [exampleAttrs]) (by simp [exampleAttrs, GoodPad])

/-! ## C11 -/

/-- C11. `nil, nil` is returned exactly for complete type-20 messages that the configuration excludes. -/
theorem C11_excluded_iff (msg : NetlinkMessage) (ex : ExcludeConfig) :
    makeArchivalRecord msg (some ex) = .ok none ↔
      msg.header.type = 20 ∧ ∃ (m : DiagMsg) (rest : Bytes), msg.data = m.wire ++ rest
        ∧ Excluded (ex.srcPorts.getD []) ex.localConns (ex.dstIPs.getD []) m := by
  by_cases ht : msg.header.type = 20
  · by_cases hs : msg.data.length < 72
    · simp only [makeArchivalRecord, splitInetDiagMsg_short hs, ht, ne_eq, not_true_eq_false, if_false]
      constructor
      · intro h; simp at h
      · rintro ⟨-, m, rest, he, -⟩
        rw [he] at hs
        have hw : m.wire.length = 72 := by
          simp [DiagMsg.wire, m.src.property, m.dst.property]
        simp [hw] at hs
        omega
    · have hl : 72 ≤ msg.data.length := by omega
      have hlt : (msg.data.take 72).length = 72 := by simp; omega
      obtain ⟨idm, hp⟩ : ∃ idm, parseIDM (msg.data.take 72) = .ok idm := ⟨_, parseIDM_ok (by omega)⟩
      obtain ⟨m, hw, hag⟩ := C02_wire_parse _ hlt idm hp
      simp only [makeArchivalRecord, splitInetDiagMsg_ok hl, ht, ne_eq, not_true_eq_false, if_false, hp, true_and]
      constructor
      · intro h
        by_cases he : ex.excludes idm = true
        · exact ⟨m, msg.data.drop 72, by rw [hw, List.take_append_drop], (excludes_iff ex idm m hag).1 he⟩
        · rw [if_neg he] at h
          exact absurd h (makeRecord_ne_none _ _ _)
      · rintro ⟨m', rest, he, hex⟩
        have hw' : m'.wire.length = 72 := by
          simp [DiagMsg.wire, m'.src.property, m'.dst.property]
        have : msg.data.take 72 = m'.wire := by rw [he]; exact List.take_left' hw'
        obtain ⟨idm', hp', hag'⟩ := C02_parse_wire_partial m' []
        rw [List.append_nil, ← this] at hp'
        have : idm = idm' := Res.ok.inj (hp.symm.trans hp')
        subst this
        rw [if_pos ((excludes_iff ex idm m' hag').2 hex)]
  · simp [makeArchivalRecord, ht]

/-- C11. Errors for wrong types and short payloads, whatever the configuration. -/
theorem C11_errors (msg : NetlinkMessage) (ex : Option ExcludeConfig) :
    (msg.header.type ≠ 20 → makeArchivalRecord msg ex = .err .notType20)
    ∧ (msg.header.type = 20 → msg.data.length < 72 → makeArchivalRecord msg ex = .err .parseFailed) := by
  constructor
  · intro h; simp [makeArchivalRecord, h]
  · intro h hs; simp [makeArchivalRecord, h, splitInetDiagMsg_short hs]

/-- C11. Without a configuration nothing is excluded, and a configuration has no effect on what it does not exclude. -/
theorem C11_otherwise_unaffected (msg : NetlinkMessage) :
    makeArchivalRecord msg none ≠ .ok none
    ∧ ∀ ex, makeArchivalRecord msg (some ex) = .ok none ∨ makeArchivalRecord msg (some ex) = makeArchivalRecord msg none := by
  constructor
  · unfold makeArchivalRecord
    split
    · simp
    · split
      · simp
      · exact makeRecord_ne_none _ _ _
  · intro ex
    by_cases hs : msg.data.length < 72
    · right; simp [makeArchivalRecord, splitInetDiagMsg_short hs]
    · have hl : 72 ≤ msg.data.length := by omega
      have hp := parseIDM_ok (raw := msg.data.take 72) (by simp; omega)
      simp only [makeArchivalRecord, splitInetDiagMsg_ok hl, hp]
      split
      · right; rfl
      · split
        · left; rfl
        · right; rfl

example : makeArchivalRecord exampleNl (some { localConns := false, srcPorts := some [443], dstIPs := none }) = .ok none :=
  (C11_excluded_iff _ _).2 ⟨rfl, exampleMsg, attrsWire exampleAttrs ++ [], by simp [exampleNl], Or.inl (by simp [exampleMsg])⟩
example : makeArchivalRecord exampleNl (some { localConns := true, srcPorts := some [80], dstIPs := some [] }) ≠ .ok none := by decide

/-! ## C12 -/

theorem parseDigits_toDigits_aux (ds : List Char) (acc : Nat) (h : ∀ c ∈ ds, c.isDigit = true) :
    parseDigits ds acc = some (Nat.ofDigitChars 10 ds acc) := by
  induction ds generalizing acc with
  | nil => simp [parseDigits]
  | cons c cs ih =>
    have hc := h c (by simp)
    simp only [parseDigits, digitVal, hc, if_true, Option.bind_some]
    rw [ih _ (fun d hd => h d (by simp [hd]))]
    simp [Nat.ofDigitChars_cons, Nat.mul_comm]

theorem parseDigits_toDigits (n : Nat) : parseDigits (Nat.toDigits 10 n) 0 = some n := by
  rw [parseDigits_toDigits_aux _ _ (fun c hc => Nat.isDigit_of_mem_toDigits (by omega) (by omega) hc)]
  simp [Nat.ofDigitChars_toDigits]

theorem toDigits_head (n : Nat) : ∃ c cs, Nat.toDigits 10 n = c :: cs ∧ c ≠ '+' ∧ c ≠ '-' := by
  cases h : Nat.toDigits 10 n with
  | nil => exact absurd h Nat.toDigits_ne_nil
  | cons c cs =>
    have hd : c.isDigit = true := Nat.isDigit_of_mem_toDigits (b := 10) (n := n) (by omega) (by omega) (by rw [h]; simp)
    refine ⟨c, cs, rfl, ?_, ?_⟩ <;> rintro rfl <;> simp [Char.isDigit] at hd

theorem parseInt16_decimal (n : Nat) : parseInt16 (toString n).toList = if n ≥ 32768 then none else some (n : Int) := by
  have e : (toString n).toList = Nat.toDigits 10 n := by
    show n.repr.toList = _
    exact Nat.toList_repr
  rw [e]
  obtain ⟨c, cs, h, h1, h2⟩ := toDigits_head n
  have hp := parseDigits_toDigits n
  rw [h] at hp ⊢
  unfold parseInt16
  split
  rename_i neg ds heq
  have : neg = false ∧ ds = c :: cs := by
    split at heq
    · rename_i hh; simp at hh; exact absurd hh.1 h1
    · rename_i hh; simp at hh; exact absurd hh.1 h2
    · simp at heq; exact ⟨heq.1, heq.2.symm⟩
  obtain ⟨rfl, rfl⟩ := this
  simp [hp]

/-- Effect on every message of adding port `q` to the excluded source ports. -/
def AddsPort (ex ex' : ExcludeConfig) (q : UInt16) : Prop :=
  ∀ msg : NetlinkMessage, makeArchivalRecord msg (some ex') = .ok none ↔
    (msg.header.type = 20 ∧ ∃ (m : DiagMsg) (rest : Bytes), msg.data = m.wire ++ rest ∧ m.sport = q)
    ∨ makeArchivalRecord msg (some ex) = .ok none

theorem addsPort_cons (ex : ExcludeConfig) (q : UInt16) : AddsPort ex { ex with srcPorts := some (q :: ex.srcPorts.getD []) } q := by
  intro msg
  rw [C11_excluded_iff, C11_excluded_iff]
  simp only [Excluded, Option.getD_some, List.mem_cons]
  constructor
  · rintro ⟨ht, m, rest, hd, (h | h) | h⟩
    · exact Or.inl ⟨ht, m, rest, hd, h⟩
    · exact Or.inr ⟨ht, m, rest, hd, Or.inl h⟩
    · exact Or.inr ⟨ht, m, rest, hd, Or.inr h⟩
  · rintro (⟨ht, m, rest, hd, h⟩ | ⟨ht, m, rest, hd, h | h⟩)
    · exact ⟨ht, m, rest, hd, Or.inl (Or.inl h)⟩
    · exact ⟨ht, m, rest, hd, Or.inl (Or.inr h)⟩
    · exact ⟨ht, m, rest, hd, Or.inr h⟩

/-- C12 (partial: ports up to 32767; the property asks for 65535, see `C12_violated_high_port`). The decimal string of a port is
accepted, and afterwards exactly the messages with that source port are excluded in addition. -/
theorem C12_add_port_partial (ex : ExcludeConfig) (p : Nat) (h : p < 32768) :
    ∃ ex', addSrcPort ex (toString p).toList = (none, ex') ∧ AddsPort ex ex' (UInt16.ofNat p) := by
  have hp := parseInt16_decimal p
  rw [if_neg (by omega)] at hp
  refine ⟨_, by simp only [addSrcPort, hp]; rfl, ?_⟩
  have : UInt16.ofInt (p : Int) = UInt16.ofNat p := by
    simp [UInt16.ofInt, UInt16.ofNat]
    rw [Int.emod_eq_of_lt (by omega) (by omega)]
    simp
  rw [this]
  exact addsPort_cons ex _

/-- C12. A rejected string changes nothing; an accepted one adds exactly one port. -/
theorem C12_add_port_frame (ex : ExcludeConfig) (s : List Char) :
    (∀ e ex', addSrcPort ex s = (some e, ex') → ex' = ex)
    ∧ (∀ ex', addSrcPort ex s = (none, ex') → ∃ q, AddsPort ex ex' q) := by
  constructor
  · intro e ex' h
    simp only [addSrcPort] at h
    split at h
    · simp at h; exact h.2.symm
    · simp at h
  · intro ex' h
    simp only [addSrcPort] at h
    split at h
    · simp at h
    · rename_i i hi
      simp only [Prod.mk.injEq, true_and] at h
      subst h
      exact ⟨_, addsPort_cons ex _⟩

/-- C12. Every text: decimal integers from -32768 to 32767 (with or without sign) are accepted and exclude, in addition, exactly the port that is congruent
to the number modulo 65536; every other text is an error and changes nothing. -/
theorem C12_texts (ex : ExcludeConfig) (s : List Char) :
    (∀ i, IntText s i → -32768 ≤ i → i ≤ 32767 → ∃ ex' q, addSrcPort ex s = (none, ex') ∧ AddsPort ex ex' q ∧ (q.toNat : Int) = i % 65536)
    ∧ ((∀ i, IntText s i → i < -32768 ∨ 32767 < i) → addSrcPort ex s = (some .strconv, ex)) := by
  constructor
  · intro i h h1 h2
    have hp := (parseInt16_iff s i).2 ⟨h, h1, h2⟩
    refine ⟨_, UInt16.ofInt i, by simp only [addSrcPort, hp], addsPort_cons ex _, ?_⟩
    have hm : 0 ≤ i % 65536 ∧ i % 65536 < 65536 := ⟨Int.emod_nonneg _ (by omega), Int.emod_lt_of_pos _ (by omega)⟩
    simp only [UInt16.ofInt, UInt16.toNat_ofNat']
    omega
  · intro h
    have : parseInt16 s = none := by
      cases hp : parseInt16 s with
      | none => rfl
      | some i =>
        obtain ⟨h1, h2, h3⟩ := (parseInt16_iff s i).1 hp
        have := h i h1
        omega
    simp only [addSrcPort, this]

example : IntText "-1".toList (-1) ∧ IntText "+080".toList 80 := ⟨((parseInt16_iff _ _).1 (by decide)).1, ((parseInt16_iff _ _).1 (by decide)).1⟩
example : (addSrcPort { localConns := false, srcPorts := none, dstIPs := none } "80 ".toList).1 = some .strconv := by decide

/-- C12 violated: every valid port from 32768 up is rejected (`ParseInt` with 16 bits is signed), and the configuration stays as it was. -/
theorem C12_violated_high_port (ex : ExcludeConfig) (p : Nat) (h1 : 32768 ≤ p) : addSrcPort ex (toString p).toList = (some .strconv, ex) := by
  have hp := parseInt16_decimal p
  rw [if_pos (by omega)] at hp
  simp only [addSrcPort, hp]

/-- C12 violated: the string "-1" is accepted and excludes port 65535. -/
theorem C12_violated_negative (ex : ExcludeConfig) : ∃ ex', addSrcPort ex ['-', '1'] = (none, ex') ∧ AddsPort ex ex' 65535 := by
  have hp : parseInt16 ['-', '1'] = some (-1) := by decide
  refine ⟨_, by simp only [addSrcPort, hp]; rfl, ?_⟩
  have : UInt16.ofInt (-1) = 65535 := by decide
  rw [this]
  exact addsPort_cons ex _

example : ∃ ex', addSrcPort { localConns := false, srcPorts := none, dstIPs := none } "9090".toList = (none, ex')
    ∧ AddsPort { localConns := false, srcPorts := none, dstIPs := none } ex' 9090 := C12_add_port_partial _ 9090 (by omega)

/-! ## C13 -/

/-- Effect on every message of adding the destination key `k`. -/
def AddsDst (ex ex' : ExcludeConfig) (k : Bytes) : Prop :=
  ∀ msg : NetlinkMessage, makeArchivalRecord msg (some ex') = .ok none ↔
    (msg.header.type = 20 ∧ ∃ (m : DiagMsg) (rest : Bytes), msg.data = m.wire ++ rest ∧ m.dst.val = k)
    ∨ makeArchivalRecord msg (some ex) = .ok none

theorem addsDst_cons (ex : ExcludeConfig) (k : Bytes) : AddsDst ex { ex with dstIPs := some (k :: ex.dstIPs.getD []) } k := by
  intro msg
  rw [C11_excluded_iff, C11_excluded_iff]
  simp only [Excluded, Option.getD_some, List.mem_cons]
  constructor
  · rintro ⟨ht, m, rest, hd, h | h | h | h⟩
    · exact Or.inr ⟨ht, m, rest, hd, Or.inl h⟩
    · exact Or.inr ⟨ht, m, rest, hd, Or.inr (Or.inl h)⟩
    · exact Or.inl ⟨ht, m, rest, hd, h⟩
    · exact Or.inr ⟨ht, m, rest, hd, Or.inr (Or.inr h)⟩
  · rintro (⟨ht, m, rest, hd, h⟩ | ⟨ht, m, rest, hd, h | h | h⟩)
    · exact ⟨ht, m, rest, hd, Or.inr (Or.inr (Or.inl h))⟩
    · exact ⟨ht, m, rest, hd, Or.inl h⟩
    · exact ⟨ht, m, rest, hd, Or.inr (Or.inl h)⟩
    · exact ⟨ht, m, rest, hd, Or.inr (Or.inr (Or.inr h))⟩

theorem parse_dotted (a b c d : UInt8) : parseIP (dotted a b c d) = some (List.replicate 10 0 ++ [0xff, 0xff] ++ [a, b, c, d]) := by
  have h := parseIP_ipString [a, b, c, d] (Or.inl rfl)
  rw [dotted_eq]
  exact h

/-- C13 (partial: IPv4 peers of AF_INET sockets). Adding an IPv4 address, as dotted decimal text, excludes exactly, in addition, the messages whose
destination field holds that address in its first four bytes and zeros behind. Missing: IPv4-mapped destinations, `C13_violated_mapped`. -/
theorem C13_add_v4_partial (ex : ExcludeConfig) (a b c d : UInt8) :
    ∃ ex', addDstIP ex (dotted a b c d) = (none, ex') ∧ AddsDst ex ex' ([a, b, c, d] ++ List.replicate 12 0) := by
  refine ⟨_, ?_, addsDst_cons ex _⟩
  simp only [addDstIP, parse_dotted]
  rfl

/-- C13. Adding a text that `net.ParseIP` reads as an IPv6 address (16 bytes, not IPv4-mapped) excludes exactly, in addition, the messages with that
destination field. -/
theorem C13_add_v6 (ex : ExcludeConfig) (dst : List Char) (ip : Bytes) (h : parseIP dst = some ip)
    (hm : ip.take 12 ≠ List.replicate 10 0 ++ [0xff, 0xff]) : ∃ ex', addDstIP ex dst = (none, ex') ∧ AddsDst ex ex' ip := by
  have hl := parseIP_length dst ip h
  have h4 : to4 ip = none := by
    have hm' : ip.take 12 ≠ v4InV6Prefix := hm
    simp [to4, hl, hm']
  refine ⟨_, by simp only [addDstIP, h, h4]; rfl, ?_⟩
  have : (ip ++ List.replicate 16 0).take 16 = ip := List.take_left' hl
  rw [this]
  exact addsDst_cons ex ip

/-- C13. In particular the text that tcp-info itself prints for an IPv6 address excludes that address. -/
theorem C13_add_v6_text (ex : ExcludeConfig) (ip : Bytes) (h : ip.length = 16) (hm : ip.take 12 ≠ List.replicate 10 0 ++ [0xff, 0xff]) :
    ∃ ex', addDstIP ex (ipString ip) = (none, ex') ∧ AddsDst ex ex' ip := by
  refine C13_add_v6 ex _ ip ?_ hm
  rw [parseIP_ipString ip (Or.inr h), to16, if_neg (by omega)]

/-- C13. A text is an error exactly when `net.ParseIP` does not accept it, and then changes nothing; otherwise exactly one destination is added. -/
theorem C13_add_frame (ex : ExcludeConfig) (dst : List Char) :
    (parseIP dst = none → addDstIP ex dst = (some .invalidIP, ex))
    ∧ (parseIP dst ≠ none → ∃ ex' k, addDstIP ex dst = (none, ex') ∧ k.length = 16 ∧ AddsDst ex ex' k) := by
  constructor
  · intro h; simp only [addDstIP, h]
  · intro h
    obtain ⟨ip, hip⟩ := Option.ne_none_iff_exists'.1 h
    have hl := parseIP_length dst ip hip
    simp only [addDstIP, hip]
    refine ⟨_, _, rfl, ?_, addsDst_cons ex _⟩
    split <;> simp [hl]

/-- C13. A text without colons that is accepted is the dotted decimal form of an IPv4 address, and that address is what is excluded. -/
theorem C13_v4_texts (ex ex' : ExcludeConfig) (dst : List Char) (hc : ':' ∉ dst) (h : addDstIP ex dst = (none, ex')) :
    ∃ a b c d, dst = dotted a b c d ∧ AddsDst ex ex' ([a, b, c, d] ++ List.replicate 12 0) := by
  have hp : ∃ ip, parseIP dst = some ip := by
    cases hd : parseIP dst with
    | none => simp [addDstIP, hd] at h
    | some ip => exact ⟨ip, rfl⟩
  obtain ⟨ip, hip⟩ := hp
  have hip' := hip
  unfold parseIP at hip'
  split at hip'
  · simp at hip'
  · rename_i c hf
    have hcm := List.mem_of_find?_eq_some hf
    have hcd : c = '.' := by
      have := List.find?_some hf
      simp only [Bool.or_eq_true, decide_eq_true_eq] at this
      rcases this with rfl | rfl
      · rfl
      · exact absurd hcm hc
    rw [if_pos hcd] at hip'
    obtain ⟨p, hpp, -⟩ := Option.map_eq_some_iff.1 hip'
    obtain ⟨-, -, -, -, e⟩ := parseIPv4_text hpp
    rw [← dotted_eq] at e
    refine ⟨_, _, _, _, e, ?_⟩
    obtain ⟨ex2, h2, h3⟩ := C13_add_v4_partial ex (UInt8.ofNat p.1) (UInt8.ofNat p.2.1) (UInt8.ofNat p.2.2.1) (UInt8.ofNat p.2.2.2)
    rw [← e, h] at h2
    injection h2 with _ h2
    subst h2; exact h3

example : ':' ∉ "8.8.8.8".toList ∧ addDstIP { localConns := false, srcPorts := none, dstIPs := none } "8.8.8.256".toList
    = (some .invalidIP, { localConns := false, srcPorts := none, dstIPs := none }) := by decide +kernel

-- texts that are and are not accepted
example : parseIP "2001:DB8::1".toList = some ([0x20, 1, 0xd, 0xb8] ++ List.replicate 11 0 ++ [1]) := by decide +kernel
example : parseIP "::ffff:8.8.8.8".toList = parseIP "8.8.8.8".toList ∧ parseIP "8.8.8.8".toList ≠ none := by decide +kernel
example : ["", "8.8.8", "8.8.8.08", "8.8.8.256", "8.8.8.8 ", "1:2:3:4:5:6:7", "1::2::3", "localhost", "fe80::1%eth0"].all (fun s => (parseIP s.toList).isNone) = true := by
  decide +kernel

/-- C13. Every text: the dotted decimal text of an IPv4 address, or a text of an IPv6 address (groups in hexadecimal, `::`, a dotted decimal end; see
`Spec.V6Text`), is accepted and excludes that address in addition, and nothing else; every other text is an error and changes nothing. (An IPv6 text of an
IPv4-mapped address excludes the IPv4 address, and not the mapped one: `C13_violated_mapped_text`.) -/
theorem C13_texts (ex : ExcludeConfig) (dst : List Char) :
    (∀ a b c d, dst = dotted a b c d → ∃ ex', addDstIP ex dst = (none, ex') ∧ AddsDst ex ex' ([a, b, c, d] ++ List.replicate 12 0))
    ∧ (∀ g, V6Text dst g → g.take 6 ≠ [0, 0, 0, 0, 0, 0xffff] → ∃ ex', addDstIP ex dst = (none, ex') ∧ AddsDst ex ex' (groupBytes g))
    ∧ (∀ g, V6Text dst g → g.take 6 = [0, 0, 0, 0, 0, 0xffff] →
        ∃ ex', addDstIP ex dst = (none, ex') ∧ AddsDst ex ex' (groupBytes (g.drop 6) ++ List.replicate 12 0))
    ∧ ((∀ ip, ¬ AddrText dst ip) → addDstIP ex dst = (some .invalidIP, ex)) := by
  have hlen : ∀ g, V6Text dst g → g.length = 8 := by
    intro g hg
    cases hg with
    | full _ h => exact h
    | ellipsis _ _ h => simp only [List.length_append, List.length_replicate]; omega
  have hlt : ∀ g, V6Text dst g → ∀ v ∈ g, v < 65536 := by
    have tail : ∀ {s : List Char} {g : List Nat}, TailText s g → ∀ v ∈ g, v < 65536 := by
      intro s g h
      induction h with
      | quad a b c d =>
        have := a.toNat_lt; have := b.toNat_lt; have := c.toNat_lt; have := d.toNat_lt
        intro v hv; simp only [List.mem_cons, List.not_mem_nil, or_false] at hv; rcases hv with rfl | rfl <;> omega
      | one _ hv => intro v h; simp at h; omega
      | more _ hv _ ih => intro v h; exact (List.mem_cons.1 h).elim (fun e => e ▸ hv) (ih v)
    intro g hg
    cases hg with
    | full h _ => exact tail h
    | ellipsis hs hr _ =>
      intro v hv
      simp only [List.mem_append, List.mem_replicate] at hv
      rcases hv with (hv | hv) | hv
      · rcases hs with ⟨-, rfl⟩ | hs
        · simp at hv
        · exact tail (groupsText_tail hs) v hv
      · omega
      · rcases hr with ⟨-, rfl⟩ | hr
        · simp at hv
        · exact tail hr v hv
  have htake : ∀ g : List Nat, g.length = 8 → (groupBytes g).take 12 = groupBytes (g.take 6) ∧ (groupBytes g).drop 12 = groupBytes (g.drop 6) := by
    intro g hg
    match g, hg with
    | [a, b, c, d, e, f, x, y], _ => exact ⟨rfl, rfl⟩
  have hinj : ∀ g : List Nat, g.length = 6 → (∀ v ∈ g, v < 65536) → groupBytes g = List.replicate 10 0 ++ [0xff, 0xff] → g = [0, 0, 0, 0, 0, 0xffff] := by
    intro g hg hv h
    match g, hg with
    | [a, b, c, d, e, f], _ =>
      have key : ∀ v x y : Nat, v < 65536 → x < 256 → y < 256 → UInt8.ofNat (v / 256) = UInt8.ofNat x → UInt8.ofNat v = UInt8.ofNat y → v = x * 256 + y := by
        intro v x y h0 hx hy h1 h2
        have h1 := congrArg UInt8.toNat h1
        have h2 := congrArg UInt8.toNat h2
        simp only [UInt8.toNat_ofNat'] at h1 h2
        omega
      simp only [groupBytes, List.flatMap_cons, List.flatMap_nil, List.replicate, List.cons_append, List.nil_append, List.append_nil, List.cons.injEq, and_true] at h
      simp only [List.mem_cons, List.not_mem_nil, or_false, forall_eq_or_imp, forall_eq] at hv
      obtain ⟨va, vb, vc, vd, ve, vf⟩ := hv
      obtain ⟨a1, a2, b1, b2, c1, c2, d1, d2, e1, e2, f1, f2⟩ := h
      rw [key a 0 0 va (by omega) (by omega) a1 a2, key b 0 0 vb (by omega) (by omega) b1 b2, key c 0 0 vc (by omega) (by omega) c1 c2,
        key d 0 0 vd (by omega) (by omega) d1 d2, key e 0 0 ve (by omega) (by omega) e1 e2, key f 255 255 vf (by omega) (by omega) f1 f2]
  refine ⟨?_, ?_, ?_, ?_⟩
  · rintro a b c d rfl; exact C13_add_v4_partial ex a b c d
  · intro g hg hm
    refine C13_add_v6 ex dst _ ((parseIP_iff _ _).2 (Or.inr ⟨g, hg, rfl⟩)) ?_
    rw [(htake g (hlen g hg)).1]
    intro h
    exact hm (hinj _ (by simp [hlen g hg]) (fun v hv => hlt g hg v (List.mem_of_mem_take hv)) h)
  · intro g hg hm
    have hp := (parseIP_iff dst _).2 (Or.inr ⟨g, hg, rfl⟩)
    have hl := parseIP_length _ _ hp
    have h12 : (groupBytes g).take 12 = v4InV6Prefix := by rw [(htake g (hlen g hg)).1, hm]; decide
    have h4 : to4 (groupBytes g) = some ((groupBytes g).drop 12) := by simp [to4, hl, h12]
    refine ⟨_, by simp only [addDstIP, hp, h4]; rfl, ?_⟩
    have e : ((groupBytes g).drop 12 ++ List.replicate 16 0).take 16 = groupBytes (g.drop 6) ++ List.replicate 12 0 := by
      rw [(htake g (hlen g hg)).2]
      have h8 := hlen g hg
      match g, h8 with
      | [a, b, c, d, e, f, x, y], _ => rfl
    rw [e]
    exact addsDst_cons ex _
  · intro h
    have : parseIP dst = none := by
      cases hp : parseIP dst with
      | none => rfl
      | some ip => exact absurd ((parseIP_iff _ _).1 hp) (h ip)
    simp only [addDstIP, this]

/-- C13. No text has two meanings. -/
theorem C13_unambiguous (dst : List Char) (ip ip' : Bytes) (h : AddrText dst ip) (h' : AddrText dst ip') : ip = ip' := by
  have h1 := (parseIP_iff _ _).2 h
  rw [(parseIP_iff _ _).2 h'] at h1
  exact (Option.some.inj h1).symm

-- non-vacuity: texts of each kind, and one that is none
example : V6Text "2001:dB8::8.8.4.4".toList [0x2001, 0xdb8, 0, 0, 0, 0, 0x808, 0x404] := parseIPv6_text (by decide +kernel)
example : V6Text "::ffff:808:404".toList [0, 0, 0, 0, 0, 0xffff, 0x808, 0x404] := parseIPv6_text (by decide +kernel)
example : V6Text "0:1:2:3:4:5:6:00007".toList [0, 1, 2, 3, 4, 5, 6, 7] := parseIPv6_text (by decide +kernel)
example : ∀ ip, ¬ AddrText "1:2:3:4:5:6:7::8".toList ip := by
  intro ip h
  have h := (parseIP_iff _ _).2 h
  rw [show parseIP "1:2:3:4:5:6:7::8".toList = none by decide +kernel] at h
  simp at h

/-- A TCP message to the IPv4-mapped address ::ffff:8.8.8.8 on an AF_INET6 socket. -/
def mappedMsg : DiagMsg := { exampleMsg with dst := ⟨List.replicate 10 0 ++ [0xff, 0xff, 8, 8, 8, 8], rfl⟩ }

/-- C13 violated: after excluding 8.8.8.8, a dual-stack socket connected to 8.8.8.8 (::ffff:8.8.8.8) is still collected. -/
theorem C13_violated_mapped : ∃ ex', addDstIP { localConns := false, srcPorts := none, dstIPs := none } "8.8.8.8".toList = (none, ex')
    ∧ ∃ r, makeArchivalRecord { exampleNl with data := mappedMsg.wire } (some ex') = .ok (some r) :=
  ⟨_, by simp only [addDstIP, show parseIP "8.8.8.8".toList = _ from parse_dotted 8 8 8 8]; rfl, _, rfl⟩

/-- C13 violated: even after excluding that very address, given as ::ffff:8.8.8.8. -/
theorem C13_violated_mapped_text : ∃ ex', addDstIP { localConns := false, srcPorts := none, dstIPs := none } "::ffff:8.8.8.8".toList = (none, ex')
    ∧ ∃ r, makeArchivalRecord { exampleNl with data := mappedMsg.wire } (some ex') = .ok (some r) :=
  ⟨_, by simp only [addDstIP, show parseIP "::ffff:8.8.8.8".toList = some (List.replicate 10 0 ++ [0xff, 0xff] ++ [8, 8, 8, 8]) by decide +kernel]; rfl, _, rfl⟩

/-- C13 violated: after excluding 8.8.8.8, a connection to the IPv6 address 808:808:: is excluded, too. -/
theorem C13_violated_alias : ∃ ex', addDstIP { localConns := false, srcPorts := none, dstIPs := none } "8.8.8.8".toList = (none, ex')
    ∧ makeArchivalRecord { exampleNl with data := { exampleMsg with dst := ⟨[8, 8, 8, 8] ++ List.replicate 12 0, rfl⟩ }.wire } (some ex')
        = .ok none :=
  ⟨_, by simp only [addDstIP, show parseIP "8.8.8.8".toList = _ from parse_dotted 8 8 8 8]; rfl, by decide⟩

example : ([0x20, 1] ++ List.replicate 14 (0 : UInt8)).length = 16
    ∧ ([0x20, 1] ++ List.replicate 14 (0 : UInt8)).take 12 ≠ List.replicate 10 0 ++ [0xff, 0xff] := by decide

/-! ## C18, C19 -/

theorem attrTable_of (msg : NetlinkMessage) (ex : Option ExcludeConfig) (r : ArchivalRecord)
    (h : makeArchivalRecord msg ex = .ok (some r)) (hdr : Bytes) (l : List (Attr × Bytes)) (rest : Bytes)
    (hd : msg.data = hdr ++ attrsWire l ++ rest) (hh : hdr.length = 72) (hr : rest.length < 4) (hg : ∀ p ∈ l, GoodAttr p) :
    ∃ m, IsMaxType m (l.map (·.1)) ∧ r.attrs.length = 1 + min m 38
      ∧ ∀ t, t < r.attrs.length → ∃ e, r.attrs[t]? = some e ∧ e.map GoSlice.val = lastOf t (l.map (·.1)) := by
  obtain ⟨-, hl, hmk⟩ := makeArchivalRecord_some h
  have e1 : msg.data.drop 72 = attrsWire l ++ rest := by rw [hd, List.append_assoc, List.drop_left' hh]
  obtain ⟨m, hm, tbl, htl, hok, htbl⟩ := makeRecord_ok (msg.data.take 72) l hg rest msg.spare hr
  rw [e1, hok] at hmk
  injection hmk with hmk; injection hmk with hmk
  subst hmk
  exact ⟨m, hm, htl, htbl⟩

/-- C18 (partial: what `HasDiagInfo` really tells). It is true exactly when the message had some attribute of type 2 *or larger*; so it is
true whenever there is an INET_DIAG_INFO (type 2) attribute, but not only then (`C18_violated`). -/
theorem C18_has_diag_info_partial (msg : NetlinkMessage) (ex : Option ExcludeConfig) (r : ArchivalRecord)
    (h : makeArchivalRecord msg ex = .ok (some r)) (hdr : Bytes) (l : List (Attr × Bytes)) (rest : Bytes)
    (hd : msg.data = hdr ++ attrsWire l ++ rest) (hh : hdr.length = 72) (hr : rest.length < 4)
    (hlen : ∀ p ∈ l, p.1.value.length ≤ 65531) (hpad : ∀ p ∈ l, GoodPad p.1 p.2) :
    (hasDiagInfo r = true ↔ ∃ p ∈ l, 2 ≤ p.1.type.toNat) ∧ ((∃ p ∈ l, p.1.type = 2) → hasDiagInfo r = true) := by
  obtain ⟨m, hm, hl, -⟩ := attrTable_of msg ex r h hdr l rest hd hh hr (fun p hp => ⟨hlen p hp, hpad p hp⟩)
  have key : hasDiagInfo r = true ↔ ∃ p ∈ l, 2 ≤ p.1.type.toNat := by
    simp only [hasDiagInfo, INET_DIAG_INFO, hl, decide_eq_true_eq]
    constructor
    · intro hgt
      rcases hm.2 with h0 | ⟨a, ha, he⟩
      · omega
      · obtain ⟨p, hp, rfl⟩ := List.mem_map.1 ha
        exact ⟨p, hp, by omega⟩
    · rintro ⟨p, hp, h2⟩
      have := hm.1 p.1 (List.mem_map.2 ⟨p, hp, rfl⟩)
      omega
  refine ⟨key, ?_⟩
  rintro ⟨p, hp, h2⟩
  exact key.2 ⟨p, hp, by rw [h2]; decide⟩

/-- C18 violated: a message with attributes 4 and 8 but no INET_DIAG_INFO has `HasDiagInfo`. -/
theorem C18_violated : (∀ p ∈ exampleAttrs, p.1.type ≠ 2) ∧ exampleNl.data = exampleMsg.wire ++ attrsWire exampleAttrs ++ []
    ∧ ∃ r, makeArchivalRecord exampleNl none = .ok (some r) ∧ hasDiagInfo r = true :=
  ⟨by decide, rfl, _, rfl, by decide⟩

theorem fieldOf_bytes_sent (b : Bytes) : fieldOf tcp_info "tcpi_bytes_sent" b = some (leNat (sub 200 8 b)) := by
  simp [fieldOf, tcp_info, List.drop_drop, sub]

theorem fieldOf_bytes_received (b : Bytes) : fieldOf tcp_info "tcpi_bytes_received" b = some (leNat (sub 128 8 b)) := by
  simp [fieldOf, tcp_info, List.drop_drop, sub]

theorem u64At_toNat (o : Nat) (b : Bytes) : (u64At o b).toNat = leNat (sub o 8 b) := by
  have h := leNat_lt (sub o 8 b)
  have hl : (sub o 8 b).length ≤ 8 := by simp [sub]; omega
  rw [u64At, UInt64.toNat_ofNat']
  apply Nat.mod_eq_of_lt
  have : 256 ^ (sub o 8 b).length ≤ 256 ^ 8 := Nat.pow_le_pow_right (by omega) hl
  omega

/-- C19. With a tcp_info attribute long enough for both counters, `GetStats` returns the kernel's `tcpi_bytes_sent` and
`tcpi_bytes_received`. -/
theorem C19_stats (r : ArchivalRecord) (s : GoSlice) (h : r.attrs[2]? = some (some s)) (hl : 208 ≤ s.val.length) :
    some (getStats r).1.toNat = fieldOf tcp_info "tcpi_bytes_sent" s.val
    ∧ some (getStats r).2.toNat = fieldOf tcp_info "tcpi_bytes_received" s.val := by
  have h2 : 2 < r.attrs.length := by
    apply Classical.byContradiction; intro hn
    rw [List.getElem?_eq_none (by omega)] at h; simp at h
  have hg : getStats r = (u64At 200 s.val, u64At 128 s.val) := by
    rw [getStats_def]
    rw [if_neg (by simp only [INET_DIAG_INFO]; omega)]
    have : r.attrs.getD INET_DIAG_INFO none = some s := by
      simp only [INET_DIAG_INFO, List.getD_eq_getElem?_getD, h]; rfl
    simp only [this, bytesSentOffset_eq, bytesReceivedOffset_eq]
    rw [if_neg (by omega)]
  rw [fieldOf_bytes_sent, fieldOf_bytes_received, hg]
  simp only [u64At_toNat]
  exact ⟨trivial, trivial⟩

/-- C19. Otherwise (no table entry, nil entry, or fewer than 208 bytes) it returns zeros. -/
theorem C19_stats_zero (r : ArchivalRecord) (h : ∀ s, r.attrs[2]? = some (some s) → s.val.length < 208) : getStats r = (0, 0) := by
  rw [getStats_def]
  simp only [INET_DIAG_INFO]
  by_cases h2 : r.attrs.length ≤ 2
  · rw [if_pos h2]
  · rw [if_neg h2, List.getD_eq_getElem?_getD]
    cases he : r.attrs[2]? with
    | none => simp [bytesSentOffset_eq]
    | some o =>
      cases o with
      | none => simp [bytesSentOffset_eq]
      | some s =>
        have := h s he
        simp only [Option.getD_some, bytesSentOffset_eq, bytesReceivedOffset_eq]
        rw [if_pos (by omega)]

/-- C19. It never panics and never loads bytes outside the attribute, whatever the record. -/
theorem C19_no_panic (r : ArchivalRecord) : getStatsGo r = some (getStats r) := by
  unfold getStats; rw [getStatsGo_def]; rfl

/-- A record with a 232-byte tcp_info whose bytes_sent is 0x0102. -/
def exampleRec : ArchivalRecord :=
  { timestamp := 0, rawIDM := some exampleMsg.wire, metadata := none
    attributes := some [none, none, some { val := List.replicate 200 0 ++ [2, 1] ++ List.replicate 30 0, spare := [] }] }

example : getStats exampleRec = (0x0102, 0) := by decide +kernel

end TcpInfo
