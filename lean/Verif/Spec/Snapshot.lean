import Verif.Model.Netlink
import Verif.Spec.Layout
import Verif.Spec.Record
/-!
# What a decoded snapshot should say about its record
-/

namespace TcpInfo.Spec
open TcpInfo

/-- Bytes of attribute `t` of a record, `none` if it is absent. -/
def attr (r : ArchivalRecord) (t : Nat) : Option Bytes := ((r.attributes.getD [])[t]?).join.map (·.val)

/-- Size of a kernel struct. -/
def sizeOf (s : CStruct) : Nat := (s.map (·.2)).sum

/-- Attribute `t` with bytes `a` can be represented completely in a snapshot: a struct that is not longer than the kernel's, a string, one byte for the
8-bit values, four for the mark. Everything else is not decoded. -/
def understood (t : Nat) (a : Bytes) : Prop :=
  match t with
  | 1 => a.length ≤ sizeOf inet_diag_meminfo
  | 2 => a.length ≤ sizeOf tcp_info
  | 3 => a.length ≤ sizeOf tcpvegas_info
  | 4 => True
  | 5 | 6 | 8 | 10 | 17 => a.length = 1
  | 7 => a.length ≤ sizeOf sk_meminfo
  | 9 => a.length ≤ sizeOf tcp_dctcp_info
  | 15 => a.length = 4
  | 16 => a.length ≤ sizeOf tcp_bbr_info
  | _ => False

/-- The attributes that are not represented completely although nothing says so in `NotFullyParsed`: 8-bit values with more than one byte, and BBR infos of
21 to 24 bytes (Go pads its struct to 24). -/
def passedOver (t : Nat) (a : Bytes) : Prop := t ∈ [5, 6, 8, 10, 17] ∧ 1 < a.length ∨ t = 16 ∧ 20 < a.length ∧ a.length ≤ 24

/-- The attributes that are never counted, whatever they hold: the 8-bit values, the mark and the MD5 signatures; and BBR infos up to 24 bytes. -/
def neverCounted (t : Nat) (a : Bytes) : Prop := t ∈ [5, 6, 8, 10, 15, 17, 18] ∨ t = 16 ∧ a.length ≤ 24

/-- Names of the fields of a Go struct and of the kernel's struct that mean the same. -/
def tcpInfoNames : List (String × String) :=
  [("State", "tcpi_state"), ("CAState", "tcpi_ca_state"), ("Retransmits", "tcpi_retransmits"), ("Probes", "tcpi_probes"),
   ("Backoff", "tcpi_backoff"), ("Options", "tcpi_options"), ("WScale", "tcpi_snd_wscale_rcv_wscale"), ("AppLimited", "tcpi_delivery_rate_app_limited"),
   ("RTO", "tcpi_rto"), ("ATO", "tcpi_ato"), ("SndMSS", "tcpi_snd_mss"), ("RcvMSS", "tcpi_rcv_mss"),
   ("Unacked", "tcpi_unacked"), ("Sacked", "tcpi_sacked"), ("Lost", "tcpi_lost"), ("Retrans", "tcpi_retrans"), ("Fackets", "tcpi_fackets"),
   ("LastDataSent", "tcpi_last_data_sent"), ("LastAckSent", "tcpi_last_ack_sent"), ("LastDataRecv", "tcpi_last_data_recv"),
   ("LastAckRecv", "tcpi_last_ack_recv"), ("PMTU", "tcpi_pmtu"), ("RcvSsThresh", "tcpi_rcv_ssthresh"), ("RTT", "tcpi_rtt"),
   ("RTTVar", "tcpi_rttvar"), ("SndSsThresh", "tcpi_snd_ssthresh"), ("SndCwnd", "tcpi_snd_cwnd"), ("AdvMSS", "tcpi_advmss"),
   ("Reordering", "tcpi_reordering"), ("RcvRTT", "tcpi_rcv_rtt"), ("RcvSpace", "tcpi_rcv_space"), ("TotalRetrans", "tcpi_total_retrans"),
   ("PacingRate", "tcpi_pacing_rate"), ("MaxPacingRate", "tcpi_max_pacing_rate"), ("BytesAcked", "tcpi_bytes_acked"),
   ("BytesReceived", "tcpi_bytes_received"), ("SegsOut", "tcpi_segs_out"), ("SegsIn", "tcpi_segs_in"), ("NotsentBytes", "tcpi_notsent_bytes"),
   ("MinRTT", "tcpi_min_rtt"), ("DataSegsIn", "tcpi_data_segs_in"), ("DataSegsOut", "tcpi_data_segs_out"), ("DeliveryRate", "tcpi_delivery_rate"),
   ("BusyTime", "tcpi_busy_time"), ("RWndLimited", "tcpi_rwnd_limited"), ("SndBufLimited", "tcpi_sndbuf_limited"),
   ("Delivered", "tcpi_delivered"), ("DeliveredCE", "tcpi_delivered_ce"), ("BytesSent", "tcpi_bytes_sent"), ("BytesRetrans", "tcpi_bytes_retrans"),
   ("DSackDups", "tcpi_dsack_dups"), ("ReordSeen", "tcpi_reord_seen"), ("RcvOooPack", "tcpi_rcv_ooopack"), ("SndWnd", "tcpi_snd_wnd")]
def memInfoNames : List (String × String) := [("Rmem", "idiag_rmem"), ("Wmem", "idiag_wmem"), ("Fmem", "idiag_fmem"), ("Tmem", "idiag_tmem")]
def socketMemNames : List (String × String) :=
  [("RmemAlloc", "RMEM_ALLOC"), ("Rcvbuf", "RCVBUF"), ("WmemAlloc", "WMEM_ALLOC"), ("Sndbuf", "SNDBUF"), ("FwdAlloc", "FWD_ALLOC"),
   ("WmemQueued", "WMEM_QUEUED"), ("Optmem", "OPTMEM"), ("Backlog", "BACKLOG"), ("Drops", "DROPS")]
def vegasNames : List (String × String) := [("Enabled", "tcpv_enabled"), ("RTTCount", "tcpv_rttcnt"), ("RTT", "tcpv_rtt"), ("MinRTT", "tcpv_minrtt")]
def dctcpNames : List (String × String) :=
  [("Enabled", "dctcp_enabled"), ("CEState", "dctcp_ce_state"), ("Alpha", "dctcp_alpha"), ("ABEcn", "dctcp_ab_ecn"), ("ABTot", "dctcp_ab_tot")]
def bbrNames : List (String × String) :=
  [("BW", "bbr_bw"), ("MinRTT", "bbr_min_rtt"), ("PacingGain", "bbr_pacing_gain"), ("CwndGain", "bbr_cwnd_gain")]

end TcpInfo.Spec
