import Verif.Model.Basic
/-!
# Independent specification of the Linux wire formats (`linux/inet_diag.h`, `linux/netlink.h`, RFC 4291/1122)

Written as concatenations of field encodings, without offsets, so that the model's offsets are checked against it.
-/

namespace TcpInfo.Spec
open TcpInfo

/-- `n`-byte little-endian encoding of `v` (host order). -/
def le : (n : Nat) → (v : Nat) → Bytes
  | 0, _ => []
  | n + 1, v => UInt8.ofNat (v % 256) :: le n (v / 256)

/-- `n`-byte big-endian encoding of `v` (network order). -/
def be (n v : Nat) : Bytes := (le n v).reverse

/-- A 16-byte address field. -/
abbrev Addr := { b : Bytes // b.length = 16 }

/-- `struct inet_diag_msg` with `struct inet_diag_sockid` inlined; ports and addresses in network order, the rest in host order
(include/uapi/linux/inet_diag.h). -/
structure DiagMsg where
  family : UInt8
  state : UInt8
  timer : UInt8
  retrans : UInt8
  sport : UInt16
  dport : UInt16
  src : Addr
  dst : Addr
  iface : UInt32
  cookie : UInt64
  expires : UInt32
  rqueue : UInt32
  wqueue : UInt32
  uid : UInt32
  inode : UInt32

/-- The bytes of `struct inet_diag_msg`, field after field. Ports and addresses are in network byte order
(`__be16`, `__be32`), the interface index and all other numbers are in the host's (`__u32`; little endian here). -/
def DiagMsg.wire (m : DiagMsg) : Bytes :=
  [m.family] ++ [m.state] ++ [m.timer] ++ [m.retrans]
  ++ be 2 m.sport.toNat ++ be 2 m.dport.toNat ++ m.src.val ++ m.dst.val ++ le 4 m.iface.toNat ++ le 8 m.cookie.toNat
  ++ le 4 m.expires.toNat ++ le 4 m.rqueue.toNat ++ le 4 m.wqueue.toNat ++ le 4 m.uid.toNat ++ le 4 m.inode.toNat

/-- The number read from the bytes of a number in the wrong order. -/
def swapped (v : UInt32) : UInt32 := UInt32.ofNat (beNat (le 4 v.toNat))

/-! ## Address classes -/

/-- IPv4: 127/8, 169.254/16, 224/4, 0.0.0.0. -/
def LocalV4 (a b c d : UInt8) : Prop :=
  a = 127 ∨ (a = 169 ∧ b = 254) ∨ (224 ≤ a.toNat ∧ a.toNat ≤ 239) ∨ (a = 0 ∧ b = 0 ∧ c = 0 ∧ d = 0)

/-- `i`-th byte of an address. -/
def byte (b : Bytes) (i : Nat) : UInt8 := b.getD i 0

/-- IPv6: `::`, `::1`, fe80::/10, ff00::/8, or `::ffff:a.b.c.d` with a local IPv4 part. -/
def LocalV6 (b : Bytes) : Prop :=
  b = List.replicate 16 0 ∨ b = List.replicate 15 0 ++ [1]
  ∨ (byte b 0 = 0xfe ∧ 0x80 ≤ (byte b 1).toNat ∧ (byte b 1).toNat ≤ 0xbf)
  ∨ byte b 0 = 0xff
  ∨ (b.take 12 = List.replicate 10 0 ++ [0xff, 0xff] ∧ LocalV4 (byte b 12) (byte b 13) (byte b 14) (byte b 15))

/-- The dotted decimal text of four bytes. -/
def dotted (a b c d : UInt8) : List Char :=
  (toString a.toNat ++ "." ++ toString b.toNat ++ "." ++ toString c.toNat ++ "." ++ toString d.toNat).toList

/-! ## Route attributes -/

/-- A netlink attribute: type and value. -/
structure Attr where
  type : UInt16
  value : Bytes

/-- `struct rtattr` block: 16-bit length (header included), 16-bit type, value, then padding to the next multiple of 4
with arbitrary content `pad`. -/
def Attr.block (a : Attr) (pad : Bytes) : Bytes :=
  le 2 (a.value.length + 4) ++ le 2 a.type.toNat ++ a.value ++ pad

/-- A sequence of attribute blocks with their padding. -/
def attrsWire : List (Attr × Bytes) → Bytes
  | [] => []
  | (a, pad) :: rest => a.block pad ++ attrsWire rest

/-- Padding is the least number of bytes reaching a multiple of four. -/
def GoodPad (a : Attr) (pad : Bytes) : Prop := pad.length < 4 ∧ (a.value.length + pad.length) % 4 = 0

/-- The 16-bit little-endian length field at the start of a block. -/
def lenField (b : Bytes) : Nat := (byte b 0).toNat + 256 * (byte b 1).toNat

end TcpInfo.Spec
