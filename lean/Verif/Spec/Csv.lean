import Verif.Spec.Snapshot
/-!
# Specification for C76 to C79: CSV (RFC 4180) and the columns of csvtool
-/

namespace TcpInfo.Spec
open TcpInfo

/-- Where a reader of CSV is: at the start of a cell, in a plain cell, in a quoted cell, after a quote in a quoted cell. -/
inductive CsvPos where
  | start | plain | quoted | afterQuote
  deriving DecidableEq

/-- A reader of CSV by RFC 4180 (records end with a line feed). `cell`, `row`, `rows`: what has been read. `none`: not CSV. -/
def readCsvLoop : CsvPos → (cell : Bytes) → (row : List Bytes) → (rows : List (List Bytes)) → Bytes → Option (List (List Bytes))
  | .start, cell, row, rows, [] => if cell = [] ∧ row = [] then some rows else none
  | _, _, _, _, [] => none
  | .start, cell, row, rows, c :: r =>
    if c = 34 then readCsvLoop .quoted [] row rows r
    else if c = 44 then readCsvLoop .plain [] (row ++ [cell]) rows r
    else if c = 10 then readCsvLoop .start [] [] (rows ++ [row ++ [cell]]) r
    else if c = 13 then none
    else readCsvLoop .plain (cell ++ [c]) row rows r
  | .plain, cell, row, rows, c :: r =>
    if c = 34 then (if cell = [] then readCsvLoop .quoted [] row rows r else none)
    else if c = 44 then readCsvLoop .plain [] (row ++ [cell]) rows r
    else if c = 10 then readCsvLoop .start [] [] (rows ++ [row ++ [cell]]) r
    else if c = 13 then none
    else readCsvLoop .plain (cell ++ [c]) row rows r
  | .quoted, cell, row, rows, c :: r =>
    if c = 34 then readCsvLoop .afterQuote cell row rows r else readCsvLoop .quoted (cell ++ [c]) row rows r
  | .afterQuote, cell, row, rows, c :: r =>
    if c = 34 then readCsvLoop .quoted (cell ++ [34]) row rows r
    else if c = 44 then readCsvLoop .plain [] (row ++ [cell]) rows r
    else if c = 10 then readCsvLoop .start [] [] (rows ++ [row ++ [cell]]) r
    else none

/-- The table in a CSV text. -/
def readCsv (b : Bytes) : Option (List (List Bytes)) := readCsvLoop .start [] [] [] b

/-- The header line. -/
def csvColumns : List String :=
  ["Timestamp", "Observed", "NotFullyParsed", "IDM.Family", "IDM.State", "IDM.Timer", "IDM.Retrans", "IDM.SockID.SPort", "IDM.SockID.DPort",
   "IDM.SockID.Src", "IDM.SockID.Dst", "IDM.SockID.Interface", "IDM.SockID.Cookie", "IDM.Expires", "IDM.Rqueue", "IDM.Wqueue", "IDM.UID",
   "IDM.Inode", "CongestionAlgorithm", "TOS", "TClass", "ClassID", "Shutdown", "Protocol", "Mark", "TCP.State", "TCP.CAState", "TCP.Retransmits",
   "TCP.Probes", "TCP.Backoff", "TCP.Options", "TCP.WScale", "TCP.AppLimited", "TCP.RTO", "TCP.ATO", "TCP.SndMSS", "TCP.RcvMSS", "TCP.Unacked",
   "TCP.Sacked", "TCP.Lost", "TCP.Retrans", "TCP.Fackets", "TCP.LastDataSent", "TCP.LastAckSent", "TCP.LastDataRecv", "TCP.LastDataRecv", "TCP.PMTU",
   "TCP.RcvSsThresh", "TCP.RTT", "TCP.RTTVar", "TCP.SndSsThresh", "TCP.SndCwnd", "TCP.AdvMSS", "TCP.Reordering", "TCP.RcvRTT", "TCP.RcvSpace",
   "TCP.TotalRetrans", "TCP.PacingRate", "TCP.MaxPacingRate", "TCP.BytesAcked", "TCP.BytesReceived", "TCP.SegsOut", "TCP.SegsIn", "TCP.NotsentBytes",
   "TCP.MinRTT", "TCP.DataSegsIn", "TCP.DataSegsOut", "TCP.DeliveryRate", "TCP.BusyTime", "TCP.RWndLimited", "TCP.SndBufLimited", "TCP.Delivered",
   "TCP.DeliveredCE", "TCP.BytesSent", "TCP.BytesRetrans", "TCP.DSackDups", "TCP.ReordSeen", "TCP.RcvOooPack", "TCP.SndWnd", "MemInfo.Rmem",
   "MemInfo.Wmem", "MemInfo.Fmem", "MemInfo.Tmem", "SKMemInfo.RmemAlloc", "SKMemInfo.Rcvbuf", "SKMemInfo.WmemAlloc", "SKMemInfo.Sndbug",
   "SKMemInfo.FwdAlloc", "SKMemInfo.WmemQueued", "SKMemInfo.Optmem", "SKMemInfo.Backlog", "SKMemInfo.Drops", "Vegas.Enabled", "Vegas.RTTCount",
   "Vegas.RTT", "Vegas.MinRTT", "DCTCP.Enabled", "DCTCP.CEState", "DCTCP.Alpha", "DCTCP.ABEcn", "DCTCP.ABTot", "BBR.BW", "BBR.MinRTT",
   "BBR.PacingGain", "BBR.CwndGain"]

/-- The columns for fields of kernel structs: name, attribute type, struct, field, and whether the cell shows the value as a signed number. -/
def kernelColumns : List (String × Nat × CStruct × String × Bool) :=
  [("TCP.State", 2, tcp_info, "tcpi_state", false), ("TCP.CAState", 2, tcp_info, "tcpi_ca_state", false),
   ("TCP.Retransmits", 2, tcp_info, "tcpi_retransmits", false), ("TCP.Probes", 2, tcp_info, "tcpi_probes", false),
   ("TCP.Backoff", 2, tcp_info, "tcpi_backoff", false), ("TCP.Options", 2, tcp_info, "tcpi_options", false),
   ("TCP.WScale", 2, tcp_info, "tcpi_snd_wscale_rcv_wscale", false), ("TCP.AppLimited", 2, tcp_info, "tcpi_delivery_rate_app_limited", false),
   ("TCP.RTO", 2, tcp_info, "tcpi_rto", false), ("TCP.ATO", 2, tcp_info, "tcpi_ato", false), ("TCP.SndMSS", 2, tcp_info, "tcpi_snd_mss", false),
   ("TCP.RcvMSS", 2, tcp_info, "tcpi_rcv_mss", false), ("TCP.Unacked", 2, tcp_info, "tcpi_unacked", false),
   ("TCP.Sacked", 2, tcp_info, "tcpi_sacked", false), ("TCP.Lost", 2, tcp_info, "tcpi_lost", false), ("TCP.Retrans", 2, tcp_info, "tcpi_retrans", false),
   ("TCP.Fackets", 2, tcp_info, "tcpi_fackets", false), ("TCP.LastDataSent", 2, tcp_info, "tcpi_last_data_sent", false),
   ("TCP.LastAckSent", 2, tcp_info, "tcpi_last_ack_sent", false), ("TCP.PMTU", 2, tcp_info, "tcpi_pmtu", false),
   ("TCP.RcvSsThresh", 2, tcp_info, "tcpi_rcv_ssthresh", false), ("TCP.RTT", 2, tcp_info, "tcpi_rtt", false),
   ("TCP.RTTVar", 2, tcp_info, "tcpi_rttvar", false), ("TCP.SndSsThresh", 2, tcp_info, "tcpi_snd_ssthresh", false),
   ("TCP.SndCwnd", 2, tcp_info, "tcpi_snd_cwnd", false), ("TCP.AdvMSS", 2, tcp_info, "tcpi_advmss", false),
   ("TCP.Reordering", 2, tcp_info, "tcpi_reordering", false), ("TCP.RcvRTT", 2, tcp_info, "tcpi_rcv_rtt", false),
   ("TCP.RcvSpace", 2, tcp_info, "tcpi_rcv_space", false), ("TCP.TotalRetrans", 2, tcp_info, "tcpi_total_retrans", false),
   ("TCP.PacingRate", 2, tcp_info, "tcpi_pacing_rate", true), ("TCP.MaxPacingRate", 2, tcp_info, "tcpi_max_pacing_rate", true),
   ("TCP.BytesAcked", 2, tcp_info, "tcpi_bytes_acked", true), ("TCP.BytesReceived", 2, tcp_info, "tcpi_bytes_received", true),
   ("TCP.SegsOut", 2, tcp_info, "tcpi_segs_out", true), ("TCP.SegsIn", 2, tcp_info, "tcpi_segs_in", true),
   ("TCP.NotsentBytes", 2, tcp_info, "tcpi_notsent_bytes", false), ("TCP.MinRTT", 2, tcp_info, "tcpi_min_rtt", false),
   ("TCP.DataSegsIn", 2, tcp_info, "tcpi_data_segs_in", false), ("TCP.DataSegsOut", 2, tcp_info, "tcpi_data_segs_out", false),
   ("TCP.DeliveryRate", 2, tcp_info, "tcpi_delivery_rate", true), ("TCP.BusyTime", 2, tcp_info, "tcpi_busy_time", true),
   ("TCP.RWndLimited", 2, tcp_info, "tcpi_rwnd_limited", true), ("TCP.SndBufLimited", 2, tcp_info, "tcpi_sndbuf_limited", true),
   ("TCP.Delivered", 2, tcp_info, "tcpi_delivered", false), ("TCP.DeliveredCE", 2, tcp_info, "tcpi_delivered_ce", false),
   ("TCP.BytesSent", 2, tcp_info, "tcpi_bytes_sent", true), ("TCP.BytesRetrans", 2, tcp_info, "tcpi_bytes_retrans", true),
   ("TCP.DSackDups", 2, tcp_info, "tcpi_dsack_dups", false), ("TCP.ReordSeen", 2, tcp_info, "tcpi_reord_seen", false),
   ("TCP.RcvOooPack", 2, tcp_info, "tcpi_rcv_ooopack", false), ("TCP.SndWnd", 2, tcp_info, "tcpi_snd_wnd", false),
   ("MemInfo.Rmem", 1, inet_diag_meminfo, "idiag_rmem", false), ("MemInfo.Wmem", 1, inet_diag_meminfo, "idiag_wmem", false),
   ("MemInfo.Fmem", 1, inet_diag_meminfo, "idiag_fmem", false), ("MemInfo.Tmem", 1, inet_diag_meminfo, "idiag_tmem", false),
   ("SKMemInfo.RmemAlloc", 7, sk_meminfo, "RMEM_ALLOC", false), ("SKMemInfo.Rcvbuf", 7, sk_meminfo, "RCVBUF", false),
   ("SKMemInfo.WmemAlloc", 7, sk_meminfo, "WMEM_ALLOC", false), ("SKMemInfo.FwdAlloc", 7, sk_meminfo, "FWD_ALLOC", false),
   ("SKMemInfo.WmemQueued", 7, sk_meminfo, "WMEM_QUEUED", false), ("SKMemInfo.Optmem", 7, sk_meminfo, "OPTMEM", false),
   ("SKMemInfo.Backlog", 7, sk_meminfo, "BACKLOG", false), ("SKMemInfo.Drops", 7, sk_meminfo, "DROPS", false),
   ("Vegas.Enabled", 3, tcpvegas_info, "tcpv_enabled", false), ("Vegas.RTTCount", 3, tcpvegas_info, "tcpv_rttcnt", false),
   ("Vegas.RTT", 3, tcpvegas_info, "tcpv_rtt", false), ("Vegas.MinRTT", 3, tcpvegas_info, "tcpv_minrtt", false),
   ("DCTCP.Enabled", 9, tcp_dctcp_info, "dctcp_enabled", false), ("DCTCP.CEState", 9, tcp_dctcp_info, "dctcp_ce_state", false),
   ("DCTCP.Alpha", 9, tcp_dctcp_info, "dctcp_alpha", false), ("DCTCP.ABEcn", 9, tcp_dctcp_info, "dctcp_ab_ecn", false),
   ("DCTCP.ABTot", 9, tcp_dctcp_info, "dctcp_ab_tot", false),
   ("BBR.BW", 16, tcp_bbr_info, "bbr_bw", true), ("BBR.MinRTT", 16, tcp_bbr_info, "bbr_min_rtt", false),
   ("BBR.PacingGain", 16, tcp_bbr_info, "bbr_pacing_gain", false), ("BBR.CwndGain", 16, tcp_bbr_info, "bbr_cwnd_gain", false)]

/-- The decimal text of a number. -/
def decimal (i : Int) : Bytes := (toString i).toList.map Char.toUInt8

/-- What the cell of a field of a kernel struct should say: nothing if the attribute is absent, else the value (missing bytes counting as zero). `signed`: a
value with the highest bit set is shown as negative. -/
def kernelCell (c : CStruct) (f : String) (signed : Bool) (a : Option Bytes) : Option Bytes :=
  match a with
  | none => some []
  | some a => (fieldOf c f a).bind (fun n => (c.lookup f).map (fun sz =>
      decimal (if signed && 2 ^ (8 * sz - 1) ≤ n then (n : Int) - 2 ^ (8 * sz) else n)))

/-- The columns for numbers in the kernel's inet_diag_msg that are shown in decimal. -/
def diagColumns : List (String × (DiagMsg → Nat)) :=
  [("IDM.Family", fun m => m.family.toNat), ("IDM.State", fun m => m.state.toNat), ("IDM.Timer", fun m => m.timer.toNat),
   ("IDM.Retrans", fun m => m.retrans.toNat), ("IDM.SockID.SPort", fun m => m.sport.toNat), ("IDM.SockID.DPort", fun m => m.dport.toNat),
   ("IDM.Expires", fun m => m.expires.toNat), ("IDM.Rqueue", fun m => m.rqueue.toNat), ("IDM.Wqueue", fun m => m.wqueue.toNat),
   ("IDM.UID", fun m => m.uid.toNat), ("IDM.Inode", fun m => m.inode.toNat)]

/-- The columns for single values (one byte, little endian if it is longer than that): name and attribute type. -/
def byteColumns : List (String × Nat) := [("TOS", 5), ("TClass", 6), ("Shutdown", 8), ("Protocol", 10), ("ClassID", 17)]

/-- Column `name` occurs exactly once, and there the row says `v`. -/
def HasCell (header row : List Bytes) (name : String) (v : Bytes) : Prop :=
  ∃ j : Nat, header[j]? = some (name.toList.map Char.toUInt8) ∧ row[j]? = some v ∧ ∀ j' : Nat, header[j']? = some (name.toList.map Char.toUInt8) → j' = j

end TcpInfo.Spec
