import Verif.Model.Snapshot
import Verif.Model.Archive
import Verif.Model.Strings
/-!
# cmd/csvtool: archives to CSV

`gocsv.Marshal` and `encoding/csv` are not in /repo; modelled (from their documentation and sources as known) because the properties are about the text:
the columns are the exported fields in declaration order, fields of structs and of pointers to structs in their place even if the struct itself is tagged
"-", a nil pointer gives empty cells; `omitempty` has no effect on encoding. If a cell cannot be marshalled the conversion fails (what has been written by
then is not modelled). Text is bytes.
-/

namespace TcpInfo

/-- Text of ASCII characters. -/
def ascL (l : List Char) : Bytes := l.map Char.toUInt8

/-- gocsv `getFieldAsString` of an unsigned number. -/
def csvNat (n : Nat) : Bytes := ascL (fmtNat n)
/-- ... of a signed number. -/
def csvInt (i : Int) : Bytes := ascL (fmtInt i)

/-- The number with the two's complement bits `n` in `sz` bytes. -/
def toSigned (sz n : Nat) : Int := if n < 2 ^ (8 * sz - 1) then (n : Int) else (n : Int) - 2 ^ (8 * sz)

/-- A column: name in the header, text of the cell (`none`: error). -/
abbrev Column := String × (Snapshot → Option Bytes)

/-- The cell for field `f` of the struct at a pointer. -/
def structCell (g : GoStruct) (f : String) (signed : Bool) (p : Option Bytes) : Bytes :=
  match p with
  | none => []
  | some mem =>
    match goOffsetof g f with
    | none => []
    | some (off, sz) => if signed then csvInt (toSigned sz (leNat (sub off sz mem))) else csvNat (leNat (sub off sz mem))

/-- The columns of a struct: csv tag, field, whether its type is signed. -/
def structColumns (g : GoStruct) (get : Snapshot → Option Bytes) (tags : List (String × String × Bool)) : List Column :=
  tags.map (fun t => (t.1, fun s => some (structCell g t.2.1 t.2.2 (get s))))

/-- The cell for something in the inet_diag header, empty if there is none. -/
def idmCell (f : InetDiagMsg → Bytes) : Snapshot → Option Bytes := fun s =>
  match s.inetDiagMsg with
  | none => some []
  | some m => some (f m)

/-- inetdiag/structs.go:243-257 `InetDiagMsg` and, in place of its field ID, 129-136 `LinuxSockID`. -/
def idmColumns : List Column :=
  [("IDM.Family", idmCell (fun m => csvNat m.family.toNat)), ("IDM.State", idmCell (fun m => csvNat m.state.toNat)),
   ("IDM.Timer", idmCell (fun m => csvNat m.timer.toNat)), ("IDM.Retrans", idmCell (fun m => csvNat m.retrans.toNat)),
   ("IDM.SockID.SPort", idmCell (fun m => ascL (portCSV m.id.sport))), ("IDM.SockID.DPort", idmCell (fun m => ascL (portCSV m.id.dport))),
   ("IDM.SockID.Src", idmCell (fun m => ascL (ipCSV m.id.src))), ("IDM.SockID.Dst", idmCell (fun m => ascL (ipCSV m.id.dst))),
   ("IDM.SockID.Interface", idmCell (fun m => ascL (netIFCSV m.id.iface))), ("IDM.SockID.Cookie", idmCell (fun m => ascL (cookieCSV m.id.cookie))),
   ("IDM.Expires", idmCell (fun m => csvNat m.expires.toNat)), ("IDM.Rqueue", idmCell (fun m => csvNat m.rqueue.toNat)),
   ("IDM.Wqueue", idmCell (fun m => csvNat m.wqueue.toNat)), ("IDM.UID", idmCell (fun m => csvNat m.uid.toNat)),
   ("IDM.Inode", idmCell (fun m => csvNat m.inode.toNat))]

/-- tcp/tcpinfo.go:58-136: csv tags and types of `LinuxTCPInfo`. -/
def tcpTags : List (String × String × Bool) :=
  [("TCP.State", "State", false), ("TCP.CAState", "CAState", false), ("TCP.Retransmits", "Retransmits", false), ("TCP.Probes", "Probes", false),
   ("TCP.Backoff", "Backoff", false), ("TCP.Options", "Options", false), ("TCP.WScale", "WScale", false), ("TCP.AppLimited", "AppLimited", false),
   ("TCP.RTO", "RTO", false), ("TCP.ATO", "ATO", false), ("TCP.SndMSS", "SndMSS", false), ("TCP.RcvMSS", "RcvMSS", false),
   ("TCP.Unacked", "Unacked", false), ("TCP.Sacked", "Sacked", false), ("TCP.Lost", "Lost", false), ("TCP.Retrans", "Retrans", false),
   ("TCP.Fackets", "Fackets", false), ("TCP.LastDataSent", "LastDataSent", false), ("TCP.LastAckSent", "LastAckSent", false),
   ("TCP.LastDataRecv", "LastDataRecv", false), ("TCP.LastDataRecv", "LastAckRecv", false),
   ("TCP.PMTU", "PMTU", false), ("TCP.RcvSsThresh", "RcvSsThresh", false), ("TCP.RTT", "RTT", false), ("TCP.RTTVar", "RTTVar", false),
   ("TCP.SndSsThresh", "SndSsThresh", false), ("TCP.SndCwnd", "SndCwnd", false), ("TCP.AdvMSS", "AdvMSS", false), ("TCP.Reordering", "Reordering", false),
   ("TCP.RcvRTT", "RcvRTT", false), ("TCP.RcvSpace", "RcvSpace", false), ("TCP.TotalRetrans", "TotalRetrans", false),
   ("TCP.PacingRate", "PacingRate", true), ("TCP.MaxPacingRate", "MaxPacingRate", true), ("TCP.BytesAcked", "BytesAcked", true),
   ("TCP.BytesReceived", "BytesReceived", true), ("TCP.SegsOut", "SegsOut", true), ("TCP.SegsIn", "SegsIn", true),
   ("TCP.NotsentBytes", "NotsentBytes", false), ("TCP.MinRTT", "MinRTT", false), ("TCP.DataSegsIn", "DataSegsIn", false),
   ("TCP.DataSegsOut", "DataSegsOut", false), ("TCP.DeliveryRate", "DeliveryRate", true), ("TCP.BusyTime", "BusyTime", true),
   ("TCP.RWndLimited", "RWndLimited", true), ("TCP.SndBufLimited", "SndBufLimited", true), ("TCP.Delivered", "Delivered", false),
   ("TCP.DeliveredCE", "DeliveredCE", false), ("TCP.BytesSent", "BytesSent", true), ("TCP.BytesRetrans", "BytesRetrans", true),
   ("TCP.DSackDups", "DSackDups", false), ("TCP.ReordSeen", "ReordSeen", false), ("TCP.RcvOooPack", "RcvOooPack", false), ("TCP.SndWnd", "SndWnd", false)]

/-- inetdiag/structs.go:348-353 `MemInfo`. -/
def memTags : List (String × String × Bool) :=
  [("MemInfo.Rmem", "Rmem", false), ("MemInfo.Wmem", "Wmem", false), ("MemInfo.Fmem", "Fmem", false), ("MemInfo.Tmem", "Tmem", false)]
/-- inetdiag/structs.go:334-344 `SocketMemInfo`. -/
def skmemTags : List (String × String × Bool) :=
  [("SKMemInfo.RmemAlloc", "RmemAlloc", false), ("SKMemInfo.Rcvbuf", "Rcvbuf", false), ("SKMemInfo.WmemAlloc", "WmemAlloc", false),
   ("SKMemInfo.Sndbug", "Sndbuf", false), ("SKMemInfo.FwdAlloc", "FwdAlloc", false), ("SKMemInfo.WmemQueued", "WmemQueued", false),
   ("SKMemInfo.Optmem", "Optmem", false), ("SKMemInfo.Backlog", "Backlog", false), ("SKMemInfo.Drops", "Drops", false)]
/-- inetdiag/structs.go:357-362 `VegasInfo`. -/
def vegasTags : List (String × String × Bool) :=
  [("Vegas.Enabled", "Enabled", false), ("Vegas.RTTCount", "RTTCount", false), ("Vegas.RTT", "RTT", false), ("Vegas.MinRTT", "MinRTT", false)]
/-- inetdiag/structs.go:366-372 `DCTCPInfo`. -/
def dctcpTags : List (String × String × Bool) :=
  [("DCTCP.Enabled", "Enabled", false), ("DCTCP.CEState", "CEState", false), ("DCTCP.Alpha", "Alpha", false), ("DCTCP.ABEcn", "ABEcn", false),
   ("DCTCP.ABTot", "ABTot", false)]
/-- inetdiag/structs.go:376-381 `BBRInfo`. -/
def bbrTags : List (String × String × Bool) :=
  [("BBR.BW", "BW", true), ("BBR.MinRTT", "MinRTT", false), ("BBR.PacingGain", "PacingGain", false), ("BBR.CwndGain", "CwndGain", false)]

/-- snapshot/snapshot.go:225-269 `Snapshot`: all columns. `zone t`: minutes east of Greenwich of the location of the timestamp `t`. -/
def columns (zone : Int → Int) : List Column :=
  [("Timestamp", fun s => fmtTime (zone s.timestamp) s.timestamp), ("Observed", fun s => some (csvNat s.observed.toNat)),
   ("NotFullyParsed", fun s => some (csvNat s.notFullyParsed.toNat))] ++ idmColumns ++
  [("CongestionAlgorithm", fun s => some s.congestionAlgorithm), ("TOS", fun s => some (csvNat s.tos.toNat)), ("TClass", fun s => some (csvNat s.tclass.toNat)),
   ("ClassID", fun s => some (csvNat s.classID.toNat)), ("Shutdown", fun s => some (csvNat s.shutdown.toNat)),
   ("Protocol", fun s => some (csvNat s.protocol.toNat)), ("Mark", fun s => some (csvNat s.mark.toNat))] ++
  structColumns goTCPInfo (·.tcpInfo) tcpTags ++ structColumns goMemInfo (·.memInfo) memTags ++ structColumns goSocketMemInfo (·.socketMem) skmemTags ++
  structColumns goVegasInfo (·.vegasInfo) vegasTags ++ structColumns goDCTCPInfo (·.dctcpInfo) dctcpTags ++ structColumns goBBRInfo (·.bbrInfo) bbrTags

/-- The first line. -/
def csvHeader (zone : Int → Int) : List Bytes := (columns zone).map (fun c => asc c.1)

/-- The cells of a row; `none`: error (a year outside 0..9999). -/
def csvRow (zone : Int → Int) (s : Snapshot) : Option (List Bytes) := (columns zone).mapM (fun c => c.2 s)

/-! ## encoding/csv `Writer` -/

/-- `unicode.IsSpace`. -/
def isSpace (c : Char) : Bool :=
  let n := c.toNat
  (9 ≤ n && n ≤ 13) || n == 32 || n == 0x85 || n == 0xA0 || n == 0x1680 || (0x2000 ≤ n && n ≤ 0x200a) || n == 0x2028 || n == 0x2029 || n == 0x202f
    || n == 0x205f || n == 0x3000

/-- `fieldNeedsQuotes`, for a comma as separator. -/
def needsQuotes (f : Bytes) : Bool :=
  match f with
  | [] => false
  | b :: r => f == [92, 46] || f.any (fun x => x == 44 || x == 34 || x == 13 || x == 10) || isSpace (decodeRune b r).1

/-- A field of `Write` (`UseCRLF` is false). -/
def writeField (f : Bytes) : Bytes :=
  if needsQuotes f then 34 :: (f.flatMap (fun x => if x = 34 then [34, 34] else [x]) ++ [34]) else f

/-- `Write`. -/
def writeRow : List Bytes → Bytes
  | [] => [10]
  | [f] => writeField f ++ [10]
  | f :: g :: fs => writeField f ++ 44 :: writeRow (g :: fs)

/-- cmd/csvtool/main.go:28-30 `toCSV`; gocsv `writeTo`: the header, then a row for each snapshot. -/
def toCSV (zone : Int → Int) (snaps : List Snapshot) : Option Bytes :=
  (snaps.mapM (csvRow zone)).map (fun rows => (csvHeader zone :: rows).flatMap writeRow)

/-- cmd/csvtool/main.go:42-61 `main` on an open source: the text on standard output. `.err`: `rtx.Must` ends the program. -/
def csvtool (zone : Int → Int) (src : Source) : Res GoErr Bytes :=
  match loadAll (archiveStream src) with
  | .panic => .panic
  | .err e => .err e
  | .ok (_, snaps) =>
    match toCSV zone snaps with
    | none => .err .json
    | some out => .ok out

/-- cmd/csvtool/main.go:33-38 `openFile`: is the file decompressed? (`strings.HasSuffix`) -/
def decompresses (name : List Char) : Bool := ".zst".toList.reverse.isPrefixOf name.reverse

end TcpInfo
