import Verif.Spec.Wire
/-!
# What the text of an address means (RFC 4291, section 2.2; dotted decimal for IPv4)

Independent of the parser. As in Go, a group may have more than four digits when they are leading zeros, and `::` stands for at least one group.
-/

namespace TcpInfo.Spec

/-- `c` is the hexadecimal digit `d`, in either case. -/
def HexDigit (c : Char) (d : Nat) : Prop := "0123456789abcdef".toList[d]? = some c ∨ "0123456789ABCDEF".toList[d]? = some c

/-- The text is a hexadecimal numeral with value `v`. -/
inductive HexText : List Char → Nat → Prop
  | one {c : Char} {d : Nat} : HexDigit c d → HexText [c] d
  | more {s : List Char} {v : Nat} {c : Char} {d : Nat} : HexText s v → HexDigit c d → HexText (s ++ [c]) (16 * v + d)

/-- 16-bit groups in hexadecimal, separated by colons. -/
inductive GroupsText : List Char → List Nat → Prop
  | one {s : List Char} {v : Nat} : HexText s v → v < 65536 → GroupsText s [v]
  | more {s r : List Char} {v : Nat} {g : List Nat} : HexText s v → v < 65536 → GroupsText r g → GroupsText (s ++ ':' :: r) (v :: g)

/-- The same, where the last two groups may be in dotted decimal. -/
inductive TailText : List Char → List Nat → Prop
  | quad (a b c d : UInt8) : TailText (dotted a b c d) [a.toNat * 256 + b.toNat, c.toNat * 256 + d.toNat]
  | one {s : List Char} {v : Nat} : HexText s v → v < 65536 → TailText s [v]
  | more {s r : List Char} {v : Nat} {g : List Nat} : HexText s v → v < 65536 → TailText r g → TailText (s ++ ':' :: r) (v :: g)

/-- The text of an IPv6 address: eight groups, or fewer than eight with one `::` where the zeros are left out. -/
inductive V6Text : List Char → List Nat → Prop
  | full {s : List Char} {g : List Nat} : TailText s g → g.length = 8 → V6Text s g
  | ellipsis {s r : List Char} {g h : List Nat} : (s = [] ∧ g = [] ∨ GroupsText s g) → (r = [] ∧ h = [] ∨ TailText r h) → g.length + h.length < 8 →
      V6Text (s ++ ':' :: ':' :: r) (g ++ List.replicate (8 - (g.length + h.length)) 0 ++ h)

/-- The 16 bytes of eight groups, big endian. -/
def groupBytes (g : List Nat) : Bytes := g.flatMap (fun v => [UInt8.ofNat (v / 256), UInt8.ofNat v])

/-- The text is an address; `ip` is its 16-byte form (IPv4: `::ffff:a.b.c.d`). -/
def AddrText (s : List Char) (ip : Bytes) : Prop :=
  (∃ a b c d, s = dotted a b c d ∧ ip = List.replicate 10 0 ++ [0xff, 0xff, a, b, c, d]) ∨ ∃ g, V6Text s g ∧ ip = groupBytes g

end TcpInfo.Spec
