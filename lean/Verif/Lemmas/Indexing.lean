import Verif.Model.SetBytes
/-!
# The indexing of attribute tables and attributes is in range
-/

namespace TcpInfo

theorem attr_in_range {l : List (Option GoSlice)} (h : ¬ l.length ≤ INET_DIAG_INFO) : l[INET_DIAG_INFO]? = some (l.getD INET_DIAG_INFO none) := by
  rw [List.getD_eq_getElem?_getD, List.getElem?_eq_getElem (by omega)]
  rfl

theorem load64_in_range {off : Nat} {b : Bytes} (h : ¬ b.length < off + 8) : load64 off b = some (u64At off b) := by
  unfold load64; rw [if_pos (by omega)]

theorem getStatsGo_def (r : ArchivalRecord) : getStatsGo r = some (
    if r.attrs.length ≤ INET_DIAG_INFO then (0, 0)
    else
      let raw := match r.attrs.getD INET_DIAG_INFO none with | none => [] | some s => s.val
      if raw.length < bytesSentOffset + 8 ∨ raw.length < bytesReceivedOffset + 8 then (0, 0)
      else (u64At bytesSentOffset raw, u64At bytesReceivedOffset raw)) := by
  unfold getStatsGo
  by_cases h : r.attrs.length ≤ INET_DIAG_INFO
  · rw [if_pos h, if_pos h]
  · rw [if_neg h, if_neg h, attr_in_range h]
    cases r.attrs.getD INET_DIAG_INFO none with
    | none =>
      simp only
      have h2 : ([] : Bytes).length < bytesSentOffset + 8 ∨ ([] : Bytes).length < bytesReceivedOffset + 8 := Or.inl (Nat.zero_lt_of_lt (Nat.lt_add_left _ (by decide : 7 < 8)))
      rw [if_pos h2, if_pos h2]
    | some s =>
      simp only
      by_cases h2 : s.val.length < bytesSentOffset + 8 ∨ s.val.length < bytesReceivedOffset + 8
      · rw [if_pos h2, if_pos h2]
      · rw [if_neg h2, if_neg h2, load64_in_range (fun h => h2 (Or.inl h)), load64_in_range (fun h => h2 (Or.inr h))]

theorem getStats_def (r : ArchivalRecord) : getStats r =
    if r.attrs.length ≤ INET_DIAG_INFO then (0, 0)
    else
      let raw := match r.attrs.getD INET_DIAG_INFO none with | none => [] | some s => s.val
      if raw.length < bytesSentOffset + 8 ∨ raw.length < bytesReceivedOffset + 8 then (0, 0)
      else (u64At bytesSentOffset raw, u64At bytesReceivedOffset raw) := by
  unfold getStats
  rw [getStatsGo_def]
  rfl

theorem compareRecords_def (pm : ArchivalRecord) (previous : Option ArchivalRecord) : compareRecords pm previous =
  match previous with
  | none => .ok .previousWasNil
  | some previous =>
    match parseIDM previous.raw with
    | .panic => .panic
    | .err _ => .err .parseFailed
    | .ok prevIDM =>
    match parseIDM pm.raw with
    | .panic => .panic
    | .err _ => .err .parseFailed
    | .ok pmIDM =>
    if prevIDM.state ≠ pmIDM.state then .ok .iDiagStateChange
    else if previous.attrs.length ≤ INET_DIAG_INFO ∨ pm.attrs.length ≤ INET_DIAG_INFO then .ok .noTCPInfo
    else match previous.attrs.getD INET_DIAG_INFO none, pm.attrs.getD INET_DIAG_INFO none with
      | some a, some b =>
        match a.slice? pmtuOffset busytimeOffset, b.slice? pmtuOffset busytimeOffset with
        | some a1, some b1 =>
          if a1 ≠ b1 then .ok .stateOrCounterChange
          else match a.slice? 0 lastDataSentOffset, b.slice? 0 lastDataSentOffset with
            | some a2, some b2 =>
              if a2 ≠ b2 then .ok .stateOrCounterChange
              else if previous.attrs.length < pm.attrs.length then .ok .newAttribute
              else if previous.attrs.length > pm.attrs.length then .ok .lostAttribute
              else .ok (compareAttrsLoop 0 previous.attrs pm.attrs)
            | _, _ => .panic
        | _, _ => .panic
      | _, _ => .ok .noTCPInfo := by
  unfold compareRecords
  cases previous with
  | none => rfl
  | some previous =>
    simp only
    cases parseIDM previous.raw with
    | panic => rfl
    | err e => rfl
    | ok m =>
      cases parseIDM pm.raw with
      | panic => rfl
      | err e => rfl
      | ok m' =>
        simp only
        split
        · rfl
        · split
          · rfl
          · rename_i h
            rw [attr_in_range (by omega), attr_in_range (by omega)]
            cases previous.attrs.getD INET_DIAG_INFO none <;> cases pm.attrs.getD INET_DIAG_INFO none <;> rfl

theorem setCounter_def (off : Nat) (testing : Bool) (r : ArchivalRecord) (value : UInt64) : setCounter off testing r value =
    if testing = false then none
    else if r.attrs.length ≤ INET_DIAG_INFO then some (r, 0)
    else match r.attrs.getD INET_DIAG_INFO none with
      | none => some (r, 0)
      | some s =>
        if s.val.length < off + 8 then some (r, 0)
        else some ({ r with attributes := some (r.attrs.set INET_DIAG_INFO (some { s with val := putU64 off value s.val })) }, u64At off s.val) := by
  unfold setCounter
  split
  · rfl
  · split
    · rfl
    · rename_i h
      rw [attr_in_range h]
      cases r.attrs.getD INET_DIAG_INFO none with
      | none => simp
      | some s =>
        simp only
        split
        · rfl
        · rename_i h2
          rw [load64_in_range h2]

end TcpInfo
