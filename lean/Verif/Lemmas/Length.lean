import Verif.Lemmas.EventClient
/-!
# Lengths of JSON lines
-/

namespace TcpInfo

theorem toDigits_length : ∀ n v, v < 10 ^ (n + 1) → (Nat.toDigits 10 v).length ≤ n + 1
  | 0, v, h => by rw [Nat.toDigits_of_lt_base (by simpa using h)]; simp
  | n + 1, v, h => by
    by_cases hv : v < 10
    · rw [Nat.toDigits_of_lt_base hv]; simp
    · rw [Nat.toDigits_of_base_le (by decide) (by omega)]
      have := toDigits_length n (v / 10) (by rw [Nat.pow_succ] at h; omega)
      simp only [List.length_append, List.length_singleton]; omega

theorem intLit_length {i : Int} (h1 : minInt64 ≤ i) (h2 : i ≤ maxInt64) : (intLit i).length ≤ 20 := by
  unfold intLit
  have := toDigits_length 18 i.natAbs (by simp only [minInt64, maxInt64] at h1 h2; omega)
  simp only [List.length_append, List.length_map]
  split <;> simp <;> omega

theorem escChar_len (c : Char) : (escChar c).length ≤ 6 := by
  unfold escChar
  have hu : (utf8Enc c.toNat).length ≤ 4 := by unfold utf8Enc; repeat' split
                                               all_goals simp
  repeat' split
  all_goals first | omega | decide | simp [escU]

theorem quote_length : ∀ s : List Char, (quote s).length ≤ 6 * s.length
  | [] => by simp [quote]
  | c :: s => by
    have h1 := escChar_len c
    have h2 := quote_length s
    unfold quote at h2 ⊢
    rw [List.flatMap_cons, List.length_append, List.length_cons]; omega

theorem fmtFrac_length (n : Nat) : (fmtFrac n).length ≤ 10 := by
  unfold fmtFrac stripZeros
  split
  · simp
  · have := (List.dropWhile_sublist (fun x : UInt8 => decide (x = 48)) (l := (pad9 n).reverse)).length_le
    simp only [List.length_reverse, List.length_cons] at this ⊢
    have h9 : (pad9 n).length = 9 := rfl
    omega

theorem fmtTime_length {off t : Int} {b : Bytes} (h : fmtTime off t = some b) : b.length ≤ 40 := by
  unfold fmtTime at h
  simp only at h
  split at h
  · injection h with h
    subst h
    have := fmtFrac_length (((t + off * 60 * nsPerSec) % nsPerSec).toNat)
    have hz : (fmtZone off).length ≤ 6 := by unfold fmtZone; split <;> simp [pad2]
    simp only [List.length_append, List.length_cons, pad2, pad4, List.length_nil]
    omega
  · simp at h

/-- The length of a line of the event socket. -/
theorem EventSocket.marshalEvent_length {zone : Int → Int} {e : EventSocket.FlowEvent} (he : EventSocket.evOk e) {b : Bytes}
    (h : EventSocket.marshalEvent zone e = some b) :
    b.length ≤ 300 + 6 * (e.uuid.length + (e.id.map (fun id => id.srcIP.length + id.dstIP.length)).getD 0) := by
  unfold EventSocket.marshalEvent at h
  obtain ⟨j, hj, rfl⟩ := Option.map_eq_some_iff.mp h
  unfold EventSocket.eventToJ at hj
  obtain ⟨ts, hts, rfl⟩ := Option.map_eq_some_iff.mp hj
  unfold timeToJ at hts
  obtain ⟨tb, htb, rfl⟩ := Option.map_eq_some_iff.mp hts
  have h1 := fmtTime_length htb
  have h2 := intLit_length he.1 he.2
  have h3 := quote_length e.uuid.toList
  have k1 : (key "Event").length = 5 := by decide +kernel
  have k2 : (key "Timestamp").length = 9 := by decide +kernel
  have k3 : (key "UUID").length = 4 := by decide +kernel
  have k4 : (key "ID").length = 2 := by decide +kernel
  rw [String.length_toList] at h3
  cases hid : e.id with
  | none =>
    simp only [EventSocket.optSockIDToJ, J.enc, J.encMembers, List.length_cons, List.length_append, List.length_nil, k1, k2, k3, k4,
      show (asc "null").length = 4 by decide +kernel, Option.map_none, Option.getD_none]
    omega
  | some id =>
    have l1 := quote_length id.srcIP.toList
    have l2 := quote_length id.dstIP.toList
    rw [String.length_toList] at l1 l2
    have n1 := id.sport.toNat_lt
    have n2 := id.dport.toNat_lt
    have n3 := id.iface.toNat_lt
    have c1 : minInt64 ≤ id.cookie.toInt := by have := Int64.le_toInt id.cookie; simpa using this
    have c2 : id.cookie.toInt ≤ maxInt64 := by have := Int64.toInt_lt id.cookie; simp only [maxInt64]; omega
    have i1 := intLit_length (i := id.sport.toNat) (by simp only [minInt64]; omega) (by simp only [maxInt64]; omega)
    have i2 := intLit_length (i := id.dport.toNat) (by simp only [minInt64]; omega) (by simp only [maxInt64]; omega)
    have i3 := intLit_length (i := id.iface.toNat) (by simp only [minInt64]; omega) (by simp only [maxInt64]; omega)
    have i4 := intLit_length c1 c2
    simp only [EventSocket.optSockIDToJ, EventSocket.sockIDToJ, J.enc, J.encMembers, List.length_cons, List.length_append, List.length_nil, k1, k2, k3,
      k4, show (key "SPort").length = 5 by decide +kernel, show (key "DPort").length = 5 by decide +kernel,
      show (key "SrcIP").length = 5 by decide +kernel, show (key "DstIP").length = 5 by decide +kernel,
      show (key "Interface").length = 9 by decide +kernel, show (key "Cookie").length = 6 by decide +kernel, Option.map_some, Option.getD_some]
    omega

end TcpInfo
