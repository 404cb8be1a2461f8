/-!
# Go basics: bytes, outcomes, slices

Conventions shared by every model file.
-/

namespace TcpInfo

/-- `[]byte` contents. -/
abbrev Bytes := List UInt8

/-- Outcome of a Go call: a value, a returned error, or a run-time panic. -/
inductive Res (ε : Type) (α : Type) where
  | ok (a : α)
  | err (e : ε)
  | panic
  deriving Repr, DecidableEq, Inhabited

namespace Res
/-- Go's `x, err := f(); if err != nil { return err }`; a panic propagates. -/
def bind {ε α β : Type} (r : Res ε α) (f : α → Res ε β) : Res ε β :=
  match r with
  | .ok a => f a
  | .err e => .err e
  | .panic => .panic
end Res

/-- Error values used by the modelled packages (identity is all that callers use). -/
inductive GoErr where
  /-- netlink/netlink_linux.go:14 `ErrNotType20` -/
  | notType20
  /-- netlink/netlink_linux.go:15, inetdiag/structs.go:286 `ErrParseFailed` -/
  | parseFailed
  /-- netlink/netlink_linux.go:45 `unix.EINVAL` -/
  | einval
  /-- inetdiag/structs.go:301 `ErrUnknownAF` -/
  | unknownAF
  /-- `io.EOF` -/
  | eof
  /-- `io.ErrUnexpectedEOF` -/
  | unexpectedEOF
  /-- any error of the underlying reader -/
  | read
  /-- `json.Unmarshal` error -/
  | json
  /-- snapshot/snapshot.go `ErrEmptyRecord` -/
  | emptyRecord
  /-- saver/saver.go:256 `errors.New("Cookie = 0")` -/
  | cookieZero
  /-- saver/saver.go `ErrNoMarshallers` -/
  | noMarshallers
  /-- any error from file creation -/
  | create
  /-- collector: `inetdiag.ErrBadSequence` -/
  | badSequence
  /-- collector: `inetdiag.ErrBadPid` -/
  | badPid
  /-- collector: `inetdiag.ErrBadMsgData` -/
  | badMsgData
  /-- strconv errors -/
  | strconv
  /-- `bufio.ErrTooLong` -/
  | tooLong
  /-- read from a connection closed on this side: text contains "use of closed network connection" -/
  | connClosed
  /-- netlink/archival-record.go:78 `errors.New("invalid ip: ...")` -/
  | invalidIP
  deriving Repr, DecidableEq, Inhabited

/-- `b[off:off+n]`, total version (shorter if `b` is). -/
def sub (off n : Nat) (b : Bytes) : Bytes := (b.drop off).take n

/-- Little-endian value, `binary.LittleEndian.UintN` and x86-64 unsafe reads. -/
def leNat : Bytes → Nat
  | [] => 0
  | x :: xs => x.toNat + 256 * leNat xs

/-- Big-endian value, `binary.BigEndian.UintN`. -/
def beNat (b : Bytes) : Nat := b.foldl (fun acc x => acc * 256 + x.toNat) 0

/-- A Go byte slice when its capacity matters: visible bytes plus the bytes between length and capacity
of the backing array (which re-slicing can reveal). -/
structure GoSlice where
  val : Bytes
  spare : Bytes
  deriving Repr, DecidableEq, Inhabited

/-- Go slice expression `s[lo:hi]`: allowed when `lo ≤ hi ≤ cap(s)`, else panics. -/
def GoSlice.slice? (s : GoSlice) (lo hi : Nat) : Option Bytes :=
  if lo ≤ hi ∧ hi ≤ s.val.length + s.spare.length then
    some (((s.val ++ s.spare).take hi).drop lo)
  else none

end TcpInfo
