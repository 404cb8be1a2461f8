import Verif.Spec.Wire
/-!
# Kernel structures (uapi/linux/tcp.h, uapi/linux/inet_diag.h), as field lists in declaration order

The kernel's structures have no padding between fields, so the byte image is the concatenation of the fields in host order.
-/

namespace TcpInfo.Spec
open TcpInfo

/-- A C struct: (field name, size in bytes). -/
abbrev CStruct := List (String × Nat)

/-- `struct tcp_info` (up to `tcpi_snd_wnd`). The two bit-field bytes are one byte each. -/
def tcp_info : CStruct :=
  [("tcpi_state",1),("tcpi_ca_state",1),("tcpi_retransmits",1),("tcpi_probes",1),("tcpi_backoff",1),("tcpi_options",1),
   ("tcpi_snd_wscale_rcv_wscale",1),("tcpi_delivery_rate_app_limited",1),
   ("tcpi_rto",4),("tcpi_ato",4),("tcpi_snd_mss",4),("tcpi_rcv_mss",4),
   ("tcpi_unacked",4),("tcpi_sacked",4),("tcpi_lost",4),("tcpi_retrans",4),("tcpi_fackets",4),
   ("tcpi_last_data_sent",4),("tcpi_last_ack_sent",4),("tcpi_last_data_recv",4),("tcpi_last_ack_recv",4),
   ("tcpi_pmtu",4),("tcpi_rcv_ssthresh",4),("tcpi_rtt",4),("tcpi_rttvar",4),("tcpi_snd_ssthresh",4),("tcpi_snd_cwnd",4),
   ("tcpi_advmss",4),("tcpi_reordering",4),("tcpi_rcv_rtt",4),("tcpi_rcv_space",4),("tcpi_total_retrans",4),
   ("tcpi_pacing_rate",8),("tcpi_max_pacing_rate",8),("tcpi_bytes_acked",8),("tcpi_bytes_received",8),
   ("tcpi_segs_out",4),("tcpi_segs_in",4),("tcpi_notsent_bytes",4),("tcpi_min_rtt",4),("tcpi_data_segs_in",4),("tcpi_data_segs_out",4),
   ("tcpi_delivery_rate",8),("tcpi_busy_time",8),("tcpi_rwnd_limited",8),("tcpi_sndbuf_limited",8),
   ("tcpi_delivered",4),("tcpi_delivered_ce",4),("tcpi_bytes_sent",8),("tcpi_bytes_retrans",8),
   ("tcpi_dsack_dups",4),("tcpi_reord_seen",4),("tcpi_rcv_ooopack",4),("tcpi_snd_wnd",4)]

/-- The `SK_MEMINFO_*` array. -/
def sk_meminfo : CStruct :=
  [("RMEM_ALLOC",4),("RCVBUF",4),("WMEM_ALLOC",4),("SNDBUF",4),("FWD_ALLOC",4),("WMEM_QUEUED",4),("OPTMEM",4),("BACKLOG",4),("DROPS",4)]
/-- `struct inet_diag_meminfo`. -/
def inet_diag_meminfo : CStruct := [("idiag_rmem",4),("idiag_wmem",4),("idiag_fmem",4),("idiag_tmem",4)]
/-- `struct tcpvegas_info`. -/
def tcpvegas_info : CStruct := [("tcpv_enabled",4),("tcpv_rttcnt",4),("tcpv_rtt",4),("tcpv_minrtt",4)]
/-- `struct tcp_dctcp_info`. -/
def tcp_dctcp_info : CStruct := [("dctcp_enabled",2),("dctcp_ce_state",2),("dctcp_alpha",4),("dctcp_ab_ecn",4),("dctcp_ab_tot",4)]
/-- `struct tcp_bbr_info` (`bbr_bw_lo`, `bbr_bw_hi` seen as one 64-bit host-order value). -/
def tcp_bbr_info : CStruct := [("bbr_bw",8),("bbr_min_rtt",4),("bbr_pacing_gain",4),("bbr_cwnd_gain",4)]

/-- Byte image of a struct whose fields have the given values: concatenation in declaration order. -/
def image (s : CStruct) (v : String → Nat) : Bytes := (s.map (fun f => le f.2 (v f.1))).flatten

/-- Values fit their fields. -/
def Fits (s : CStruct) (v : String → Nat) : Prop := ∀ f ∈ s, v f.1 < 256 ^ f.2

end TcpInfo.Spec
