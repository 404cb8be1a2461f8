import Verif.Spec.Record
import Verif.Spec.AddrText
import Verif.Spec.NumText
/-!
# What the exclusion flags mean
-/

namespace TcpInfo.Spec
open TcpInfo

/-- The text is a port number in decimal. -/
def PortText (s : List Char) (p : Nat) : Prop := p ≤ 65535 ∧ IntText s p

/-- The kernel's destination field for an address in Go's 16-byte form: IPv4 addresses (`::ffff:a.b.c.d`) are in the first four bytes. -/
def dstField (ip : Bytes) : Bytes :=
  if ip.take 12 = List.replicate 10 0 ++ [0xff, 0xff] then ip.drop 12 ++ List.replicate 12 0 else ip

/-- The text is an address that names the destination of `m`. -/
def DstText (s : List Char) (m : DiagMsg) : Prop := ∃ ip, AddrText s ip ∧ m.dst.val = dstField ip

/-- What the user asked to leave out: connections with a local address on either side, with a listed source port or with a listed destination. -/
def Unwanted (dstIPs srcPorts : List (List Char)) (m : DiagMsg) : Prop :=
  LocalField m.src.val ∨ LocalField m.dst.val ∨ (∃ s ∈ srcPorts, PortText s m.sport.toNat) ∨ ∃ s ∈ dstIPs, DstText s m

end TcpInfo.Spec
