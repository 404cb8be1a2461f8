import Verif.Model.InetDiag
import Verif.Model.EventSocket
/-!
# Names and textual forms (packages tcp, eventsocket, inetdiag)

Text is a list of characters.
-/

namespace TcpInfo

/-- `%d` of an unsigned number. -/
def fmtNat (n : Nat) : List Char := Nat.toDigits 10 n
/-- `%d` of a signed number; `strconv.FormatInt(i, 10)`. -/
def fmtInt (i : Int) : List Char := if i < 0 then '-' :: fmtNat i.natAbs else fmtNat i.natAbs
/-- `%X` of an unsigned number. -/
def fmtHex (n : Nat) : List Char := (Nat.toDigits 16 n).map Char.toUpper

/-- tcp/tcpinfo.go:32-45 `stateName`. -/
def stateName : List (Int × List Char) :=
  [(0, "INVALID".toList), (1, "ESTABLISHED".toList), (2, "SYN_SENT".toList), (3, "SYN_RECV".toList), (4, "FIN_WAIT1".toList), (5, "FIN_WAIT2".toList),
   (6, "TIME_WAIT".toList), (7, "CLOSE".toList), (8, "CLOSE_WAIT".toList), (9, "LAST_ACK".toList), (10, "LISTEN".toList), (11, "CLOSING".toList)]

/-- tcp/tcpinfo.go:47-53 `State.String`. -/
def stateString (x : Int) : List Char :=
  match stateName.lookup x with
  | some s => s
  | none => "UNKNOWN_STATE_".toList ++ fmtInt x

/-- eventsocket/tcpevent_string.go:7-9 `_TCPEvent_name`, `_TCPEvent_index`. -/
def tcpEventName : List Char := "OpenClose".toList
def tcpEventIndex : List Nat := [0, 4, 9]

/-- eventsocket/tcpevent_string.go:11-16 `TCPEvent.String`; slicing or indexing out of range panics. -/
def tcpEventString (i : Int) : Res GoErr (List Char) :=
  if i < 0 ∨ i ≥ (tcpEventIndex.length : Int) - 1 then .ok ("TCPEvent(".toList ++ fmtInt i ++ ")".toList)
  else
    match tcpEventIndex[i.toNat]?, tcpEventIndex[i.toNat + 1]? with
    | some a, some b => if a ≤ b ∧ b ≤ tcpEventName.length then .ok ((tcpEventName.take b).drop a) else .panic
    | _, _ => .panic

/-- inetdiag/structs.go:111-114 `Port.MarshalCSV`: big endian, decimal. -/
def portCSV (p : Bytes) : List Char := fmtNat (beNat p)
/-- inetdiag/structs.go:120-123 `netIF.MarshalCSV`: big endian, decimal. -/
def netIFCSV (p : Bytes) : List Char := fmtNat (beNat p)
/-- inetdiag/structs.go:94-97 `cookieType.MarshalCSV`: little endian, upper case hexadecimal. -/
def cookieCSV (p : Bytes) : List Char := fmtHex (leNat p)
/-- inetdiag/structs.go:102-105 `ipType.MarshalCSV`. -/
def ipCSV (p : Bytes) : List Char := ipString (ipOf p)

end TcpInfo
