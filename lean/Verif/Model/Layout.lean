import Verif.Model.InetDiag
/-!
# Go struct layouts

Field lists transcribed from the Go sources; sizes in bytes. Offsets follow Go's (and C's) alignment rule on amd64: every field is aligned to
its own size, the struct to the largest alignment.
-/

namespace TcpInfo

/-- A Go struct: field names with their sizes, in declaration order. -/
abbrev GoStruct := List (String × Nat)

/-- Round `n` up to a multiple of `a`. -/
def alignUp (n a : Nat) : Nat := (n + a - 1) / a * a

/-- `unsafe.Offsetof` for every field: (name, offset, size). -/
def goOffsets : GoStruct → (off : Nat) → List (String × Nat × Nat)
  | [], _ => []
  | (n, sz) :: fs, off => (n, alignUp off sz, sz) :: goOffsets fs (alignUp off sz + sz)

/-- End of the last field. -/
def goEnd : GoStruct → (off : Nat) → Nat
  | [], off => off
  | (_, sz) :: fs, off => goEnd fs (alignUp off sz + sz)

/-- `unsafe.Sizeof`. -/
def goSizeof (s : GoStruct) : Nat := alignUp (goEnd s 0) ((s.map (·.2)).foldl max 1)

/-- `unsafe.Offsetof(x.name)`. -/
def goOffsetof (s : GoStruct) (name : String) : Option (Nat × Nat) :=
  ((goOffsets s 0).find? (fun f => f.1 == name)).map (fun f => f.2)

/-- Reading field `name` of a struct in memory (`mem` = its bytes). Signed fields are given by their two's complement bits. -/
def goField (s : GoStruct) (name : String) (mem : Bytes) : Option Nat :=
  (goOffsetof s name).map (fun (off, sz) => leNat (sub off sz mem))

/-- tcp/tcpinfo.go:58-136 `LinuxTCPInfo`. -/
def goTCPInfo : GoStruct :=
  [("State",1),("CAState",1),("Retransmits",1),("Probes",1),("Backoff",1),("Options",1),("WScale",1),("AppLimited",1),
   ("RTO",4),("ATO",4),("SndMSS",4),("RcvMSS",4),
   ("Unacked",4),("Sacked",4),("Lost",4),("Retrans",4),("Fackets",4),
   ("LastDataSent",4),("LastAckSent",4),("LastDataRecv",4),("LastAckRecv",4),
   ("PMTU",4),("RcvSsThresh",4),("RTT",4),("RTTVar",4),("SndSsThresh",4),("SndCwnd",4),("AdvMSS",4),("Reordering",4),
   ("RcvRTT",4),("RcvSpace",4),("TotalRetrans",4),
   ("PacingRate",8),("MaxPacingRate",8),("BytesAcked",8),("BytesReceived",8),("SegsOut",4),("SegsIn",4),
   ("NotsentBytes",4),("MinRTT",4),("DataSegsIn",4),("DataSegsOut",4),
   ("DeliveryRate",8),("BusyTime",8),("RWndLimited",8),("SndBufLimited",8),
   ("Delivered",4),("DeliveredCE",4),("BytesSent",8),("BytesRetrans",8),
   ("DSackDups",4),("ReordSeen",4),("RcvOooPack",4),("SndWnd",4)]

/-- inetdiag/structs.go:334-344 `SocketMemInfo`. -/
def goSocketMemInfo : GoStruct :=
  [("RmemAlloc",4),("Rcvbuf",4),("WmemAlloc",4),("Sndbuf",4),("FwdAlloc",4),("WmemQueued",4),("Optmem",4),("Backlog",4),("Drops",4)]
/-- inetdiag/structs.go:348-353 `MemInfo`. -/
def goMemInfo : GoStruct := [("Rmem",4),("Wmem",4),("Fmem",4),("Tmem",4)]
/-- inetdiag/structs.go:357-362 `VegasInfo`. -/
def goVegasInfo : GoStruct := [("Enabled",4),("RTTCount",4),("RTT",4),("MinRTT",4)]
/-- inetdiag/structs.go:366-372 `DCTCPInfo`. -/
def goDCTCPInfo : GoStruct := [("Enabled",2),("CEState",2),("Alpha",4),("ABEcn",4),("ABTot",4)]
/-- inetdiag/structs.go:376-381 `BBRInfo`. -/
def goBBRInfo : GoStruct := [("BW",8),("MinRTT",4),("PacingGain",4),("CwndGain",4)]

end TcpInfo
