import Verif.Model.Basic
/-!
# The parts of Go's `net.IP` that the code uses

`net.IP` is a byte slice of length 4 or 16. Modelled after the Go standard library's `net/ip.go`
(`To4`, `IsUnspecified`, `IsLoopback`, `IsMulticast`, `IsLinkLocalUnicast`, `IPv4`). These are not in /repo; they
are part of the trusted base.
-/

namespace TcpInfo

/-- net/ip.go `v4InV6Prefix`. -/
def v4InV6Prefix : Bytes := [0,0,0,0,0,0,0,0,0,0,0xff,0xff]

/-- net/ip.go `IPv4(a,b,c,d)`: 16-byte form. -/
def netIPv4 (a b c d : UInt8) : Bytes := v4InV6Prefix ++ [a, b, c, d]

/-- net/ip.go `(IP).To4`. -/
def to4 (ip : Bytes) : Option Bytes :=
  if ip.length = 4 then some ip
  else if ip.length = 16 ∧ ip.take 12 = v4InV6Prefix then some (ip.drop 12)
  else none

/-- net/ip.go `(IP).Equal`. -/
def ipEqual (a b : Bytes) : Bool :=
  if a.length = b.length then a == b
  else if a.length = 4 ∧ b.length = 16 then b.take 12 == v4InV6Prefix && a == b.drop 12
  else if a.length = 16 ∧ b.length = 4 then a.take 12 == v4InV6Prefix && a.drop 12 == b
  else false

/-- net/ip.go `IPv4zero`, `IPv6unspecified`, `IPv6loopback`. -/
def ipv4zero : Bytes := netIPv4 0 0 0 0
def ipv6unspecified : Bytes := List.replicate 16 0
def ipv6loopback : Bytes := List.replicate 15 0 ++ [1]

/-- net/ip.go `(IP).IsUnspecified`. -/
def isUnspecified (ip : Bytes) : Bool := ipEqual ip ipv4zero || ipEqual ip ipv6unspecified

/-- net/ip.go `(IP).IsLoopback`. -/
def isLoopback (ip : Bytes) : Bool :=
  match to4 ip with
  | some ip4 => ip4.getD 0 0 == 127
  | none => ipEqual ip ipv6loopback

/-- net/ip.go `(IP).IsMulticast`. -/
def isMulticast (ip : Bytes) : Bool :=
  match to4 ip with
  | some ip4 => ip4.getD 0 0 &&& 0xf0 == 0xe0
  | none => ip.length == 16 && ip.getD 0 0 == 0xff

/-- net/ip.go `(IP).IsLinkLocalUnicast`. -/
def isLinkLocalUnicast (ip : Bytes) : Bool :=
  match to4 ip with
  | some ip4 => ip4.getD 0 0 == 169 && ip4.getD 1 0 == 254
  | none => ip.length == 16 && ip.getD 0 0 == 0xfe && ip.getD 1 0 &&& 0xc0 == 0x80

end TcpInfo
