import Verif.Model.Strings
import Verif.Spec.Wire
import Verif.Lemmas.Bytes
/-!
# C60: names and textual forms
-/

namespace TcpInfo

/-! ## Reading numbers (specification) -/

/-- The number a digit stands for. -/
def Spec.digit (c : Char) : Nat := if c.toNat ≥ 97 then c.toNat - 87 else if c.toNat ≥ 65 then c.toNat - 55 else c.toNat - 48
/-- The number written in base `b`, most significant digit first. -/
def Spec.readNat (b : Nat) (s : List Char) : Nat := s.foldl (fun n c => n * b + Spec.digit c) 0
/-- Decimal with sign. -/
def Spec.readInt : List Char → Int
  | '-' :: s => - (Spec.readNat 10 s : Int)
  | s => Spec.readNat 10 s

theorem digit_digitChar (d : Nat) (h : d < 16) : Spec.digit d.digitChar = d := by
  have : ∀ d : Fin 16, Spec.digit d.val.digitChar = d.val := by decide
  exact this ⟨d, h⟩
theorem digit_upper (d : Nat) (h : d < 16) : Spec.digit d.digitChar.toUpper = d := by
  have : ∀ d : Fin 16, Spec.digit d.val.digitChar.toUpper = d.val := by decide +kernel
  exact this ⟨d, h⟩

theorem readNat_snoc (b : Nat) (s : List Char) (c : Char) : Spec.readNat b (s ++ [c]) = Spec.readNat b s * b + Spec.digit c := by
  simp [Spec.readNat]

theorem read_fmtNat (n : Nat) : Spec.readNat 10 (fmtNat n) = n := by
  induction n using Nat.strongRecOn with
  | _ n ih =>
    unfold fmtNat at *
    by_cases h : n < 10
    · rw [Nat.toDigits_of_lt_base h]
      simp [Spec.readNat, digit_digitChar n (by omega)]
    · rw [Nat.toDigits_of_base_le (by omega) (by omega), readNat_snoc, ih (n / 10) (by omega), digit_digitChar _ (by omega)]
      omega

theorem read_fmtHex (n : Nat) : Spec.readNat 16 (fmtHex n) = n := by
  induction n using Nat.strongRecOn with
  | _ n ih =>
    unfold fmtHex at *
    by_cases h : n < 16
    · rw [Nat.toDigits_of_lt_base h]
      simp [Spec.readNat, digit_upper n h]
    · rw [Nat.toDigits_of_base_le (by omega) (by omega), List.map_append, List.map_singleton, readNat_snoc, ih (n / 16) (by omega),
        digit_upper _ (by omega)]
      omega

theorem fmtNat_digit {n : Nat} {c : Char} (h : c ∈ fmtNat n) : c.isDigit = true := Nat.isDigit_of_mem_toDigits (by omega) (by omega) h

theorem read_fmtInt (i : Int) : Spec.readInt (fmtInt i) = i := by
  unfold fmtInt
  split
  · simp only [Spec.readInt, read_fmtNat]; omega
  · have hne : ∀ s, fmtNat i.natAbs ≠ '-' :: s := by
      intro s h
      have := fmtNat_digit (n := i.natAbs) (c := '-') (by rw [h]; simp)
      simp [Char.isDigit] at this
    unfold Spec.readInt
    split
    · rename_i s h; exact absurd h (hne s)
    · rw [read_fmtNat]; omega

theorem fmtInt_inj {i j : Int} (h : fmtInt i = fmtInt j) : i = j := by rw [← read_fmtInt i, h, read_fmtInt]

/-! ## C60 -/

/-- C60. Different TCP states have different names, known or not. -/
theorem C60_state_names (x y : Int) (h : stateString x = stateString y) : x = y := by
  unfold stateString at h
  have hk : ∀ x s, stateName.lookup x = some s → (x, s) ∈ stateName := by
    intro x s h
    rw [List.lookup_eq_some_iff] at h
    obtain ⟨a, b, h, -⟩ := h
    simp [h]
  have hd : ∀ p ∈ stateName, ∀ q ∈ stateName, p.2 = q.2 → p.1 = q.1 := by decide +kernel
  have hu : ∀ p ∈ stateName, p.2.take 14 ≠ "UNKNOWN_STATE_".toList := by decide +kernel
  have ht : ∀ z, ("UNKNOWN_STATE_".toList ++ fmtInt z).take 14 = "UNKNOWN_STATE_".toList := by
    intro z; exact List.take_left' (by decide +kernel)
  cases hx : stateName.lookup x with
  | some s =>
    cases hy : stateName.lookup y with
    | some t => rw [hx, hy] at h; exact hd _ (hk x s hx) _ (hk y t hy) h
    | none =>
      rw [hx, hy] at h; simp only at h
      have := hu _ (hk x s hx)
      simp only [h, ht] at this; exact absurd rfl this
  | none =>
    cases hy : stateName.lookup y with
    | some t =>
      rw [hx, hy] at h; simp only at h
      have := hu _ (hk y t hy)
      simp only [← h, ht] at this; exact absurd rfl this
    | none => rw [hx, hy] at h; exact fmtInt_inj (List.append_cancel_left h)

/-- C60. The names of the states of the kernel (include/net/tcp_states.h, numbers 1 to 11). -/
theorem C60_state_known : (List.range 12).map (fun (n : Nat) => String.ofList (stateString n))
    = ["INVALID", "ESTABLISHED", "SYN_SENT", "SYN_RECV", "FIN_WAIT1", "FIN_WAIT2", "TIME_WAIT", "CLOSE", "CLOSE_WAIT", "LAST_ACK", "LISTEN", "CLOSING"] := by
  decide +kernel

/-- C60. Every event value has a name. -/
theorem C60_event_total (i : Int) : ∃ s, tcpEventString i = .ok s
    ∧ s = (if i = 0 then "Open".toList else if i = 1 then "Close".toList else "TCPEvent(".toList ++ fmtInt i ++ ")".toList) := by
  unfold tcpEventString
  have hl : (tcpEventIndex.length : Int) - 1 = 2 := by decide
  rw [hl]
  by_cases h : i < 0 ∨ i ≥ 2
  · rw [if_pos h, if_neg (by omega), if_neg (by omega)]; exact ⟨_, rfl, rfl⟩
  · rw [if_neg h]
    have : i = 0 ∨ i = 1 := by omega
    rcases this with rfl | rfl
    · exact ⟨"Open".toList, by decide +kernel, by simp⟩
    · exact ⟨"Close".toList, by decide +kernel, by simp⟩

/-- C60. Different event values have different names. -/
theorem C60_event_names (i j : Int) (h : tcpEventString i = tcpEventString j) : i = j := by
  obtain ⟨s, h1, h2⟩ := C60_event_total i
  obtain ⟨t, h3, h4⟩ := C60_event_total j
  rw [h1, h3] at h
  injection h with h
  rw [h2, h4] at h
  have ho : ∀ (z : Int), "Open".toList ≠ "TCPEvent(".toList ++ fmtInt z ++ ")".toList := by intro z e; simp at e
  have hc : ∀ (z : Int), "Close".toList ≠ "TCPEvent(".toList ++ fmtInt z ++ ")".toList := by intro z e; simp at e
  have hoc : "Open".toList ≠ "Close".toList := by decide
  by_cases i0 : i = 0 <;> by_cases j0 : j = 0 <;> by_cases i1 : i = 1 <;> by_cases j1 : j = 1 <;> simp only [i0, j0, i1, j1, if_true, if_false] at h ⊢ <;>
    first
      | omega
      | exact absurd h hoc
      | exact absurd h.symm hoc
      | exact absurd h (ho _)
      | exact absurd h.symm (ho _)
      | exact absurd h (hc _)
      | exact absurd h.symm (hc _)
      | exact fmtInt_inj (List.append_cancel_left (List.append_cancel_right h))

theorem beNat_inj : ∀ (a b : Bytes), a.length = b.length → beNat a = beNat b → a = b := by
  have key : ∀ (a b : Bytes) (x y : Nat), a.length = b.length →
      a.foldl (fun acc (z : UInt8) => acc * 256 + z.toNat) x = b.foldl (fun acc (z : UInt8) => acc * 256 + z.toNat) y → a = b ∧ x = y := by
    intro a
    induction a with
    | nil => intro b x y hl h; cases b with | nil => exact ⟨rfl, h⟩ | cons _ _ => simp at hl
    | cons u a ih =>
      intro b x y hl h
      cases b with
      | nil => simp at hl
      | cons v b =>
        simp only [List.foldl_cons] at h
        obtain ⟨h1, h2⟩ := ih b _ _ (by simpa using hl) h
        have := u.toNat_lt; have := v.toNat_lt
        have e : u.toNat = v.toNat := by omega
        exact ⟨by rw [h1, UInt8.toNat_inj.1 e], by omega⟩
  exact fun a b hl h => (key a b 0 0 hl h).1

/-- C60. The CSV form of a port is its number in decimal (the bytes are in network order). -/
theorem C60_port_csv (hi lo : UInt8) : Spec.readNat 10 (portCSV [hi, lo]) = hi.toNat * 256 + lo.toNat := by
  simp [portCSV, read_fmtNat, beNat]

/-- C60. Ports and interfaces with the same CSV form are the same. -/
theorem C60_port_unique (p q : Bytes) (hl : p.length = q.length) (h : portCSV p = portCSV q) : p = q := by
  apply beNat_inj p q hl
  rw [← read_fmtNat (beNat p), ← read_fmtNat (beNat q)]; exact congrArg _ h

/-- C60. The CSV form of an interface is its number in decimal. -/
theorem C60_interface_csv (a b c d : UInt8) :
    Spec.readNat 10 (netIFCSV [a, b, c, d]) = ((a.toNat * 256 + b.toNat) * 256 + c.toNat) * 256 + d.toNat := by
  simp [netIFCSV, read_fmtNat, beNat]

/-- C60. See `C60_port_unique`. -/
theorem C60_interface_unique (p q : Bytes) (hl : p.length = q.length) (h : netIFCSV p = netIFCSV q) : p = q := C60_port_unique p q hl h

/-- C60. The CSV form of a cookie is the hexadecimal form of the same number that is used everywhere else (`Cookie()`). -/
theorem C60_cookie_csv (id : LinuxSockID) (hl : id.cookie.length = 8) : Spec.readNat 16 (cookieCSV id.cookie) = id.cookieVal.toNat := by
  have := leNat_lt id.cookie
  rw [hl] at this
  simp [cookieCSV, read_fmtHex, LinuxSockID.cookieVal]
  omega

/-- C60. Cookies with the same CSV form are the same. -/
theorem C60_cookie_unique (p q : Bytes) (hl : p.length = q.length) (h : cookieCSV p = cookieCSV q) : p = q := by
  have e : leNat p = leNat q := by rw [← read_fmtHex (leNat p), ← read_fmtHex (leNat q)]; exact congrArg _ h
  rw [← le_leNat p, ← le_leNat q, e, hl]

example : String.ofList (stateString 1000) = "UNKNOWN_STATE_1000" := by decide +kernel
example : String.ofList (stateString (-3)) = "UNKNOWN_STATE_-3" := by decide +kernel
example : tcpEventString 2 = .ok "TCPEvent(2)".toList := by decide +kernel
example : String.ofList (portCSV [0x1f, 0x90]) = "8080" ∧ String.ofList (cookieCSV [0xef, 0xbe, 0, 0, 0, 0, 0, 0]) = "BEEF" := by decide +kernel

end TcpInfo
