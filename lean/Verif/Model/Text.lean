import Verif.Model.Basic
/-!
# Text encodings of the Go standard library used by the archive format: UTF-8, base64, RFC 3339 times

None of this is in /repo; the code relies on it through `encoding/json` (netlink/archival-record.go:369, saver/saver.go:79,153, eventsocket/server.go:105,
eventsocket/client.go:50). It is modelled because the properties of the archive are about the text.
-/

namespace TcpInfo

/-! ## UTF-8 (unicode/utf8) -/

/-- A byte given by a number. -/
abbrev byte (n : Nat) : UInt8 := UInt8.ofNat n

/-- `utf8.AppendRune` for a valid code point. -/
def utf8Enc (n : Nat) : Bytes :=
  if n < 0x80 then [byte n]
  else if n < 0x800 then [byte (0xC0 + n / 64), byte (0x80 + n % 64)]
  else if n < 0x10000 then [byte (0xE0 + n / 4096), byte (0x80 + n / 64 % 64), byte (0x80 + n % 64)]
  else [byte (0xF0 + n / 262144), byte (0x80 + n / 4096 % 64), byte (0x80 + n / 64 % 64), byte (0x80 + n % 64)]

/-- `utf8.RuneError`, U+FFFD. -/
def runeError : Char := Char.ofNat 0xFFFD

/-- Continuation byte. -/
def isCont (b : UInt8) : Bool := 0x80 ≤ b.toNat && b.toNat < 0xC0

/-- `utf8.DecodeRune` on `b :: r`: the rune and what follows it; an invalid sequence is one byte wide and gives U+FFFD. -/
def decodeRune (b : UInt8) (r : Bytes) : Char × Bytes :=
  if b.toNat < 0x80 then (Char.ofNat b.toNat, r)
  else if b.toNat < 0xE0 then
    match r with
    | b1 :: r1 =>
      let v := (b.toNat - 0xC0) * 64 + (b1.toNat - 0x80)
      if 0xC2 ≤ b.toNat ∧ isCont b1 then (Char.ofNat v, r1) else (runeError, r)
    | _ => (runeError, r)
  else if b.toNat < 0xF0 then
    match r with
    | b1 :: b2 :: r2 =>
      let v := (b.toNat - 0xE0) * 4096 + (b1.toNat - 0x80) * 64 + (b2.toNat - 0x80)
      if isCont b1 ∧ isCont b2 ∧ 0x800 ≤ v ∧ ¬(0xD800 ≤ v ∧ v < 0xE000) then (Char.ofNat v, r2) else (runeError, r)
    | _ => (runeError, r)
  else
    match r with
    | b1 :: b2 :: b3 :: r3 =>
      let v := (b.toNat - 0xF0) * 262144 + (b1.toNat - 0x80) * 4096 + (b2.toNat - 0x80) * 64 + (b3.toNat - 0x80)
      if isCont b1 ∧ isCont b2 ∧ isCont b3 ∧ 0x10000 ≤ v ∧ v < 0x110000 then (Char.ofNat v, r3) else (runeError, r)
    | _ => (runeError, r)

/-! ## Base64 (encoding/base64 `StdEncoding`) -/

/-- The alphabet. -/
def b64Char (n : Nat) : UInt8 :=
  if n < 26 then byte (65 + n)          -- A-Z
  else if n < 52 then byte (97 + (n - 26)) -- a-z
  else if n < 62 then byte (48 + (n - 52)) -- 0-9
  else if n = 62 then 43 else 47         -- + /

/-- The inverse of the alphabet. -/
def b64Val (b : UInt8) : Option Nat :=
  let n := b.toNat
  if 65 ≤ n ∧ n < 91 then some (n - 65)
  else if 97 ≤ n ∧ n < 123 then some (n - 97 + 26)
  else if 48 ≤ n ∧ n < 58 then some (n - 48 + 52)
  else if n = 43 then some 62
  else if n = 47 then some 63
  else none

/-- `EncodeToString`; `=` is 61. -/
def b64Enc : Bytes → Bytes
  | [] => []
  | [a] => [b64Char (a.toNat / 4), b64Char (a.toNat % 4 * 16), 61, 61]
  | [a, b] => [b64Char (a.toNat / 4), b64Char (a.toNat % 4 * 16 + b.toNat / 16), b64Char (b.toNat % 16 * 4), 61]
  | a :: b :: c :: r =>
    b64Char (a.toNat / 4) :: b64Char (a.toNat % 4 * 16 + b.toNat / 16) :: b64Char (b.toNat % 16 * 4 + c.toNat / 64) :: b64Char (c.toNat % 64) :: b64Enc r

/-- `Decode` of input without line breaks; `none`: `CorruptInputError`. Bits that do not fit are ignored (the encoding is not strict). -/
def b64DecLoop : Bytes → Option Bytes
  | [] => some []
  | a :: b :: c :: d :: r =>
    match b64Val a, b64Val b with
    | some x, some y =>
      if d = 61 ∧ c = 61 then (if r = [] then some [byte (x * 4 + y / 16)] else none)
      else match b64Val c with
        | none => none
        | some z =>
          if d = 61 then (if r = [] then some [byte (x * 4 + y / 16), byte (y % 16 * 16 + z / 4)] else none)
          else match b64Val d with
            | none => none
            | some w => (b64DecLoop r).map (fun l => byte (x * 4 + y / 16) :: byte (y % 16 * 16 + z / 4) :: byte (z % 4 * 64 + w) :: l)
    | _, _ => none
  | _ => none

/-- `Decode`: line breaks are skipped. -/
def b64Dec (b : Bytes) : Option Bytes := b64DecLoop (b.filter (fun x => x ≠ 10 ∧ x ≠ 13))

/-! ## Times (time `MarshalJSON`, `UnmarshalJSON`)

A time is the number of nanoseconds since the Unix epoch, the calendar is the proleptic Gregorian one. -/

/-- Days since 1970-01-01 to year, month, day: cycles of 400, 100, 4 and 1 years starting on 1 March (time `absDays.split` cuts off the same cycles). -/
def civil (days : Int) : Int × Nat × Nat :=
  let z := days + 719468
  let era := z / 146097
  let doe := (z % 146097).toNat
  let c := min 3 (doe / 36524)
  let q := (doe - 36524 * c) / 1461
  let r := doe - 36524 * c - 1461 * q
  let a := min 3 (r / 365)
  let yoe := 100 * c + 4 * q + a
  let doy := r - 365 * a
  let mp := (5 * doy + 2) / 153
  let d := doy - (153 * mp + 2) / 5 + 1
  let m := if mp < 10 then mp + 3 else mp - 9
  ((yoe : Int) + era * 400 + (if m ≤ 2 then 1 else 0), m, d)

/-- Year, month, day to days since 1970-01-01. -/
def daysOf (y : Int) (m d : Nat) : Int :=
  let y' := if m ≤ 2 then y - 1 else y
  let era := y' / 400
  let yoe := (y' % 400).toNat
  let mp := if m > 2 then m - 3 else m + 9
  let doy := (153 * mp + 2) / 5 + d - 1
  let doe := yoe * 365 + yoe / 4 - yoe / 100 + doy
  era * 146097 + (doe : Int) - 719468

/-- Leap year. -/
def isLeap (y : Int) : Bool := y % 4 = 0 ∧ (y % 100 ≠ 0 ∨ y % 400 = 0)

/-- time `daysIn`. -/
def daysIn (y : Int) (m : Nat) : Nat :=
  if m = 2 then (if isLeap y then 29 else 28)
  else if m = 4 ∨ m = 6 ∨ m = 9 ∨ m = 11 then 30 else 31

/-- Decimal digit. -/
def digit (n : Nat) : UInt8 := byte (48 + n % 10)
/-- Fixed width decimals. -/
def pad2 (n : Nat) : Bytes := [digit (n / 10), digit n]
def pad4 (n : Nat) : Bytes := [digit (n / 1000), digit (n / 100), digit (n / 10), digit n]
def pad9 (n : Nat) : Bytes :=
  [digit (n / 100000000), digit (n / 10000000), digit (n / 1000000), digit (n / 100000), digit (n / 10000), digit (n / 1000), digit (n / 100),
   digit (n / 10), digit n]

/-- Without trailing zeros. -/
def stripZeros (b : Bytes) : Bytes := (b.reverse.dropWhile (· = 48)).reverse

/-- `.999999999` of `RFC3339Nano`. -/
def fmtFrac (ns : Nat) : Bytes := if ns = 0 then [] else 46 :: stripZeros (pad9 ns)

/-- `Z07:00`; the offset is in minutes. -/
def fmtZone (off : Int) : Bytes :=
  if off = 0 then [90]
  else (if off < 0 then 45 else 43) :: (pad2 (off.natAbs / 60) ++ 58 :: pad2 (off.natAbs % 60))

/-- Nanoseconds per second. -/
abbrev nsPerSec : Int := 1000000000

/-- `t.Format(time.RFC3339Nano)` in a zone `off` minutes east of Greenwich; `none`: the year is not in 0..9999 (`MarshalJSON` returns an error). -/
def fmtTime (off : Int) (t : Int) : Option Bytes :=
  let l := t + off * 60 * nsPerSec
  let secs := l / nsPerSec
  let c := civil (secs / 86400)
  let sod := (secs % 86400).toNat
  if 0 ≤ c.1 ∧ c.1 ≤ 9999 then
    some (pad4 c.1.toNat ++ 45 :: pad2 c.2.1 ++ 45 :: pad2 c.2.2 ++ 84 :: pad2 (sod / 3600) ++ 58 :: pad2 (sod / 60 % 60) ++ 58 :: pad2 (sod % 60) ++
      fmtFrac (l % nsPerSec).toNat ++ fmtZone off)
  else none

/-- Value of a digit. -/
def digitOf (b : UInt8) : Option Nat := if 48 ≤ b.toNat ∧ b.toNat < 58 then some (b.toNat - 48) else none

/-- Two digits. -/
def num2 (a b : UInt8) : Option Nat := (digitOf a).bind (fun x => (digitOf b).map (fun y => x * 10 + y))
/-- Four digits. -/
def num4 (a b c d : UInt8) : Option Nat := (num2 a b).bind (fun x => (num2 c d).map (fun y => x * 100 + y))

/-- The digits at the front, and the rest. -/
def spanDigits (b : Bytes) : Bytes × Bytes := (b.takeWhile (fun x => (digitOf x).isSome), b.dropWhile (fun x => (digitOf x).isSome))

/-- Value of a fraction whose first digit has weight `w` (digits of weight below 1 are dropped). -/
def fracVal : (w : Nat) → Bytes → Nat
  | _, [] => 0
  | w, d :: ds => (digitOf d).getD 0 * w + fracVal (w / 10) ds

/-- Optional fraction of a second: nanoseconds and the rest; a point must be followed by a digit. -/
def parseFrac (b : Bytes) : Option (Nat × Bytes) :=
  match b with
  | p :: r =>
    if p = 46 then (if (spanDigits r).1 = [] then none else some (fracVal 100000000 (spanDigits r).1, (spanDigits r).2)) else some (0, b)
  | [] => some (0, b)

/-- Zone: offset in minutes; nothing may follow. -/
def parseZone (b : Bytes) : Option Int :=
  match b with
  | [z] => if z = 90 then some 0 else none
  | [s, h1, h2, c, m1, m2] =>
    match num2 h1 h2, num2 m1 m2 with
    | some h, some m =>
      if c = 58 ∧ h < 24 ∧ m < 60 then
        if s = 43 then some ((h * 60 + m : Nat) : Int) else if s = 45 then some (-((h * 60 + m : Nat) : Int)) else none
      else none
    | _, _ => none
  | _ => none

/-- `time.Time.UnmarshalJSON`: strict RFC 3339 (Go 1.20 and later; earlier versions also accept a few sloppy forms). -/
def parseTime (b : Bytes) : Option Int :=
  match b with
  | y1 :: y2 :: y3 :: y4 :: c1 :: m1 :: m2 :: c2 :: d1 :: d2 :: c3 :: h1 :: h2 :: c4 :: n1 :: n2 :: c5 :: s1 :: s2 :: r =>
    match num4 y1 y2 y3 y4, num2 m1 m2, num2 d1 d2, num2 h1 h2, num2 n1 n2, num2 s1 s2, parseFrac r with
    | some y, some m, some d, some h, some n, some s, some (ns, r) =>
      if (c1 = 45 ∧ c2 = 45 ∧ c3 = 84 ∧ c4 = 58 ∧ c5 = 58) ∧ 1 ≤ m ∧ m ≤ 12 ∧ 1 ≤ d ∧ d ≤ daysIn y m ∧ h < 24 ∧ n < 60 ∧ s < 60 then
        (parseZone r).map (fun off => ((daysOf y m d * 86400 + ((h * 3600 + n * 60 + s : Nat) : Int)) - off * 60) * nsPerSec + (ns : Int))
      else none
    | _, _, _, _, _, _, _ => none
  | _ => none

end TcpInfo
