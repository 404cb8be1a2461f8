import Verif.Model.NetIP
/-!
# The textual form of addresses: `net.IP.String` and `net.ParseIP`

Modelled after Go 1.20's net/ip.go and net/netip/netip.go (not in /repo; part of the trusted base). Text is a list of characters; `ParseIP` looks at bytes,
and all bytes it accepts are ASCII.
-/

namespace TcpInfo

/-! ## Formatting -/

/-- The 16-bit groups of an address, big endian (net/netip `v6u16`). -/
def groups : Bytes → List Nat
  | a :: b :: r => (a.toNat * 256 + b.toNat) :: groups r
  | _ => []

/-- net/netip `appendDecimal` of the four bytes, with dots (`string4`). -/
def fmtIPv4 : Bytes → List Char
  | [] => []
  | [a] => Nat.toDigits 10 a.toNat
  | a :: r => Nat.toDigits 10 a.toNat ++ '.' :: fmtIPv4 r

/-- Number of zero groups from group `i` on (inner loop of net/netip `appendTo6`). -/
def zeroRun (g : List Nat) (i : Nat) : Nat := ((g.drop i).takeWhile (· = 0)).length

/-- net/netip `appendTo6`, first loop: start and end of the zeros that are left out (255, 255 if there are none). -/
def bestRun (g : List Nat) : Nat × Nat :=
  (List.range 8).foldl (fun best i => if 2 ≤ zeroRun g i ∧ zeroRun g i > best.2 - best.1 then (i, i + zeroRun g i) else best) (255, 255)

/-- Groups in lower-case hexadecimal (`appendHex`), with colons. -/
def joinHex : List Nat → List Char
  | [] => []
  | [g] => Nat.toDigits 16 g
  | g :: gs => Nat.toDigits 16 g ++ ':' :: joinHex gs

/-- net/netip `appendTo6`, second loop. -/
def fmtIPv6 (ip : Bytes) : List Char :=
  let g := groups ip
  let z := bestRun g
  if z.1 < 8 then joinHex (g.take z.1) ++ ':' :: ':' :: joinHex (g.drop z.2) else joinHex g

/-- net/ip.go `(IP).String`. (`"?"` and hexadecimal digits follow for a wrong length; the digits are left out here, no such value occurs.) -/
def ipString (ip : Bytes) : List Char :=
  if ip.length = 0 then "<nil>".toList
  else if ip.length ≠ 4 ∧ ip.length ≠ 16 then ['?']
  else match to4 ip with
    | some p4 => fmtIPv4 p4
    | none => fmtIPv6 ip

/-! ## Parsing -/

/-- The value of a decimal digit. -/
def decVal (c : Char) : Option Nat := if 48 ≤ c.toNat ∧ c.toNat < 58 then some (c.toNat - 48) else none

/-- The value of a hexadecimal digit. -/
def hexCharVal (c : Char) : Option Nat :=
  if 48 ≤ c.toNat ∧ c.toNat < 58 then some (c.toNat - 48)
  else if 97 ≤ c.toNat ∧ c.toNat < 103 then some (c.toNat - 87)
  else if 65 ≤ c.toNat ∧ c.toNat < 71 then some (c.toNat - 55)
  else none

/-- net/parse.go `dtoi`, `xtoi`: the loop. `none`: too big (`big` = 0xFFFFFF). -/
def scanNum (val : Char → Option Nat) (base : Nat) : Nat → List Char → Option (Nat × List Char)
  | n, [] => some (n, [])
  | n, c :: s =>
    match val c with
    | none => some (n, c :: s)
    | some d => if n * base + d ≥ 0xFFFFFF then none else scanNum val base (n * base + d) s

/-- net/parse.go `dtoi` (base 10), `xtoi` (base 16): the number and the rest; there must be a digit. -/
def toI (val : Char → Option Nat) (base : Nat) (s : List Char) : Option (Nat × List Char) :=
  if (s.head?.bind val).isNone then none else scanNum val base 0 s

/-- net/ip.go `parseIPv4`, the loop's body: one number. -/
def octet (s : List Char) : Option (Nat × List Char) :=
  match toI decVal 10 s with
  | none => none
  | some (n, rest) => if n > 255 then none else if s.length - rest.length > 1 ∧ s.head? = some '0' then none else some (n, rest)

/-- net/ip.go `parseIPv4`: a dot. -/
def dot : List Char → Option (List Char)
  | [] => none
  | c :: s => if c = '.' then some s else none

/-- net/ip.go `parseIPv4` (the loop of four rounds is unrolled): the four bytes. -/
def parseIPv4 (s : List Char) : Option (Nat × Nat × Nat × Nat) := do
  let (a, s) ← octet s
  let (b, s) ← octet (← dot s)
  let (c, s) ← octet (← dot s)
  let (d, s) ← octet (← dot s)
  if s.isEmpty then some (a, b, c, d) else none

/-- net/ip.go `parseIPv6`, the loop: at most `n` more groups; `acc`: groups so far; `ell`: where the ellipsis is. The result has the unread text. -/
def parse6Loop : (n : Nat) → List Char → (acc : List Nat) → (ell : Option Nat) → Option (List Nat × Option Nat × List Char)
  | 0, s, acc, ell => some (acc, ell, s)
  | n + 1, s, acc, ell =>
    match toI hexCharVal 16 s with
    | none => none
    | some (v, rest) =>
      if v > 0xFFFF then none
      else match rest with
      | [] => some (acc ++ [v], ell, [])
      | c :: rest =>
        if c = '.' then
          if ell = none ∧ acc.length ≠ 6 then none
          else if acc.length + 2 > 8 then none
          else match parseIPv4 s with
            | none => none
            | some (a, b, c, d) => some (acc ++ [a * 256 + b, c * 256 + d], ell, [])
        else if c ≠ ':' then none
        else match rest with
        | [] => none
        | c :: rest =>
          if c = ':' then
            if ell.isSome then none
            else if rest.isEmpty then some (acc ++ [v], some (acc.length + 1), [])
            else parse6Loop n rest (acc ++ [v]) (some (acc.length + 1))
          else parse6Loop n (c :: rest) (acc ++ [v]) ell

/-- net/ip.go `parseIPv6`, after the loop: insert the zeros. -/
def expand (acc : List Nat) (ell : Option Nat) : Option (List Nat) :=
  if acc.length < 8 then
    match ell with
    | none => none
    | some e => some (acc.take e ++ List.replicate (8 - acc.length) 0 ++ acc.drop e)
  else if ell.isSome then none else some acc

/-- net/ip.go `parseIPv6`: the groups. -/
def parseIPv6 (s : List Char) : Option (List Nat) :=
  let start : List Char × Option Nat := if s.take 2 = [':', ':'] then (s.drop 2, some 0) else (s, none)
  if start.2.isSome ∧ start.1.isEmpty then some (List.replicate 8 0)
  else match parse6Loop 8 start.1 [] start.2 with
    | none => none
    | some (acc, ell, rest) => if rest.isEmpty then expand acc ell else none

/-- The bytes of groups. -/
def ungroup (g : List Nat) : Bytes := g.flatMap (fun v => [UInt8.ofNat (v / 256), UInt8.ofNat v])

/-- net/ip.go `ParseIP`: 16 bytes, or nil. -/
def parseIP (s : List Char) : Option Bytes :=
  match s.find? (fun c => c = '.' || c = ':') with
  | none => none
  | some c =>
    if c = '.' then (parseIPv4 s).map (fun p => netIPv4 (UInt8.ofNat p.1) (UInt8.ofNat p.2.1) (UInt8.ofNat p.2.2.1) (UInt8.ofNat p.2.2.2))
    else (parseIPv6 s).map ungroup

end TcpInfo
