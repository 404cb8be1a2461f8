import Verif.Model.IPText
/-!
# Package inetdiag
-/

namespace TcpInfo

/-- inetdiag/inetdiag.go:35,38 -/
abbrev AF_INET : UInt8 := 0x02
abbrev AF_INET6 : UInt8 := 0x0a

/-- inetdiag/structs.go:129-136 `LinuxSockID`: raw byte arrays `Port [2]`, `ipType [16]`, `netIF [4]`,
`cookieType [8]`. Array lengths are a fact about the parser (`parseSockID`), not part of the type. -/
structure LinuxSockID where
  sport : Bytes
  dport : Bytes
  src : Bytes
  dst : Bytes
  iface : Bytes
  cookie : Bytes
  deriving Repr, DecidableEq, Inhabited

namespace LinuxSockID
/-- inetdiag/structs.go:184-186 `SPort` (big endian). -/
def sPort (id : LinuxSockID) : UInt16 := UInt16.ofNat (beNat id.sport)
/-- inetdiag/structs.go:191-193 `DPort` (big endian). -/
def dPort (id : LinuxSockID) : UInt16 := UInt16.ofNat (beNat id.dport)
/-- inetdiag/structs.go:167-169 `Interface` (big endian). -/
def interface (id : LinuxSockID) : UInt32 := UInt32.ofNat (beNat id.iface)
/-- inetdiag/structs.go:196-199 `Cookie` (little endian). -/
def cookieVal (id : LinuxSockID) : UInt64 := UInt64.ofNat (leNat id.cookie)
end LinuxSockID

/-- inetdiag/structs.go:243-257 `InetDiagMsg`. -/
structure InetDiagMsg where
  family : UInt8
  state : UInt8
  timer : UInt8
  retrans : UInt8
  id : LinuxSockID
  expires : UInt32
  rqueue : UInt32
  wqueue : UInt32
  uid : UInt32
  inode : UInt32
  deriving Repr, DecidableEq, Inhabited

/-- inetdiag/structs.go:265-267, netlink/netlink_linux.go:38-40, netlink/netlink_darwin.go:61-63 `rtaAlignOf`:
`(n + 3) & ^3` (non-negative `int`, no overflow in range). -/
def rtaAlignOf (n : Nat) : Nat := (n + 3) / 4 * 4

/-- `unsafe.Sizeof(InetDiagMsg{})` = 4 + 48 + 20 (inetdiag/structs.go:243-257). -/
def sizeofInetDiagMsg : Nat := 72

/-- inetdiag/structs.go:273-283 `SplitInetDiagMsg`; `none` is the `nil, nil` return. Logging omitted. -/
def splitInetDiagMsg (data : Bytes) : Option (Bytes × Bytes) :=
  let align := rtaAlignOf sizeofInetDiagMsg
  if data.length < align then none
  else some (data.take align, data.drop align)

/-- Memory layout of `LinuxSockID` (inetdiag/structs.go:129-136), all fields byte arrays, no padding. -/
def parseSockID (b : Bytes) : LinuxSockID :=
  { sport := sub 0 2 b, dport := sub 2 2 b, src := sub 4 16 b, dst := sub 20 16 b,
    iface := sub 36 4 b, cookie := sub 40 8 b }

/-- Little-endian (host order) reads of the unsafe cast in `Parse`. -/
def u8At (off : Nat) (b : Bytes) : UInt8 := b.getD off 0
def u16At (off : Nat) (b : Bytes) : UInt16 := UInt16.ofNat (leNat (sub off 2 b))
def u32At (off : Nat) (b : Bytes) : UInt32 := UInt32.ofNat (leNat (sub off 4 b))
def u64At (off : Nat) (b : Bytes) : UInt64 := UInt64.ofNat (leNat (sub off 8 b))

/-- inetdiag/structs.go:290-298 `RawInetDiagMsg.Parse`: unsafe cast of the bytes to `InetDiagMsg`.
The Go result aliases the bytes; the model copies, aliasing is handled where it matters (saver/marshaller model). -/
def parseIDM (raw : Bytes) : Res GoErr InetDiagMsg :=
  let align := rtaAlignOf sizeofInetDiagMsg
  if raw.length < align then .err .parseFailed
  else .ok {
    family := u8At 0 raw, state := u8At 1 raw, timer := u8At 2 raw, retrans := u8At 3 raw
    id := parseSockID (sub 4 48 raw)
    expires := u32At 52 raw, rqueue := u32At 56 raw, wqueue := u32At 60 raw
    uid := u32At 64 raw, inode := u32At 68 raw }

/-- inetdiag/structs.go:210-217 `isIpv6`: some byte 4..15 is non-zero. -/
def isIpv6 (b : Bytes) : Bool := (b.drop 4).any (· != 0)

/-- inetdiag/structs.go:203-208, 219-225 `ip`, `ipv4` (`net.IPv4(..).To4()` = the first four bytes), `ipv6`. -/
def ipOf (b : Bytes) : Bytes :=
  if isIpv6 b then b
  else ((to4 (netIPv4 (b.getD 0 0) (b.getD 1 0) (b.getD 2 0) (b.getD 3 0))).getD [])

/-- inetdiag/structs.go:172-179 `SrcIP`, `DstIP`. -/
def LinuxSockID.srcIP (id : LinuxSockID) : Bytes := ipOf id.src
def LinuxSockID.dstIP (id : LinuxSockID) : Bytes := ipOf id.dst

/-- inetdiag/structs.go:139-146 `SockID`. -/
structure SockID where
  sport : UInt16
  dport : UInt16
  srcIP : String
  dstIP : String
  iface : UInt32
  cookie : Int64
  deriving DecidableEq, Inhabited

/-- inetdiag/structs.go:154-164 `GetSockID`; `int64(id.Cookie())` reinterprets the 64 bits. -/
def LinuxSockID.getSockID (id : LinuxSockID) : SockID :=
  { srcIP := String.ofList (ipString id.srcIP), sport := id.sPort, dstIP := String.ofList (ipString id.dstIP), dport := id.dPort,
    iface := id.interface, cookie := id.cookieVal.toInt64 }

/-- inetdiag/structs.go:149-151 `CookieUint64`: reinterprets the int64 as uint64. -/
def SockID.cookieUint64 (s : SockID) : UInt64 := s.cookie.toUInt64

/-- Write `v` over `b` at `off` (in-place assignment through the unsafe pointer). -/
def splice (b : Bytes) (off : Nat) (v : Bytes) : Bytes := b.take off ++ v ++ b.drop (off + v.length)

/-- The anonymizer interface (`m-lab/go/anonymize`, `IPAnonymizer.IP(net.IP)`) works in place on the slice it is given,
so it preserves its length; otherwise arbitrary. -/
structure Anonymizer where
  f : Bytes → Bytes
  len : ∀ b, (f b).length = b.length

/-- inetdiag/structs.go:308-329 `Anonymize`, in place: returns the error (if any) and the new contents of the bytes.
Offsets: `ID` at 4, `IDiagSrc` at 4 in it, `IDiagDst` at 20 in it. -/
def anonymizeRaw (anon : Anonymizer) (raw : Bytes) : Option GoErr × Bytes :=
  match parseIDM raw with
  | .ok msg =>
    if msg.family = AF_INET6 then
      let raw := splice raw 8 (anon.f (sub 8 16 raw))
      let raw := splice raw 24 (anon.f (sub 24 16 raw))
      (none, raw)
    else if msg.family = AF_INET then
      let raw := splice raw 8 (anon.f (sub 8 4 raw))
      let raw := splice raw 24 (anon.f (sub 24 4 raw))
      (none, raw)
    else (some .unknownAF, raw)
  | .err e => (some e, raw)
  | .panic => (some .parseFailed, raw) -- unreachable: `parseIDM` never panics

/-! ## Requests -/

/-- inetdiag/structs.go:57-64 `ReqV2` (with `ID` left zero by `NewReqV2`). -/
structure ReqV2 where
  family : UInt8
  protocol : UInt8
  ext : UInt8
  pad : UInt8
  states : UInt32
  id : Bytes
  deriving DecidableEq, Inhabited

/-- inetdiag/structs.go:82-88 `NewReqV2`. -/
def newReqV2 (family protocol : UInt8) (states : UInt32) : ReqV2 :=
  { family, protocol, ext := 0, pad := 0, states, id := List.replicate 48 0 }

/-- Little-endian bytes of a `uint32` in memory. -/
def u32Bytes (v : UInt32) : Bytes :=
  [v.toUInt8, (v >>> 8).toUInt8, (v >>> 16).toUInt8, (v >>> 24).toUInt8]

/-- inetdiag/structs.go:72-74 `Serialize`: the struct's memory. -/
def ReqV2.serialize (r : ReqV2) : Bytes :=
  [r.family, r.protocol, r.ext, r.pad] ++ u32Bytes r.states ++ r.id

/-- inetdiag/structs.go:77-79 `Len`. -/
def ReqV2.len (_ : ReqV2) : Nat := 56

/-- inetdiag/inetdiag.go:40-62 attribute numbers. -/
abbrev INET_DIAG_MEMINFO : Nat := 1
abbrev INET_DIAG_INFO : Nat := 2
abbrev INET_DIAG_VEGASINFO : Nat := 3
abbrev INET_DIAG_CONG : Nat := 4
abbrev INET_DIAG_TOS : Nat := 5
abbrev INET_DIAG_TCLASS : Nat := 6
abbrev INET_DIAG_SKMEMINFO : Nat := 7
abbrev INET_DIAG_SHUTDOWN : Nat := 8
abbrev INET_DIAG_DCTCPINFO : Nat := 9
abbrev INET_DIAG_MARK : Nat := 15
abbrev INET_DIAG_BBRINFO : Nat := 16
abbrev INET_DIAG_MAX : Nat := 19

end TcpInfo
