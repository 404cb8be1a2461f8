import Verif.Model.Netlink
/-!
# Specification: archive files
-/

namespace TcpInfo.Spec
open TcpInfo

/-- The text of a file with these lines. -/
def linesText (lines : List Bytes) : Bytes := lines.flatMap (fun l => l ++ [10])

/-- The lines of a text; the last one need not end with a newline. -/
def splitLines : Bytes → List Bytes
  | [] => []
  | c :: r =>
    if c = 10 then [] :: splitLines r
    else match splitLines r with
      | [] => [[c]]
      | l :: ls => (c :: l) :: ls

/-- A carriage return before the newline belongs to the line end. -/
def stripCR (l : Bytes) : Bytes := if l.getLast? = some 13 then l.dropLast else l

/-- What an attribute holds: nothing (nil), or bytes, possibly none. -/
def attrContents (a : Option GoSlice) : Option Bytes := a.map (·.val)

/-- The record `b` has the contents of `a`: time, raw message (nil if it is empty), every attribute (nil and empty are different), metadata. A nil table has
the same contents as an empty one. -/
def SameContents (a b : ArchivalRecord) : Prop :=
  a.timestamp = b.timestamp ∧ b.rawIDM = (if a.rawIDM = some [] then none else a.rawIDM) ∧
  (a.attributes.getD []).map attrContents = (b.attributes.getD []).map attrContents ∧ a.metadata = b.metadata

/-- 1 January of year 0 and of year 10000, in nanoseconds since the epoch. -/
def year0 : Int := -719528 * 86400 * 1000000000
def year10000 : Int := 2932897 * 86400 * 1000000000

/-- How many of the lines lie completely within the first `len` bytes of their file (newlines aside). -/
def completeLines : List Bytes → Nat → Nat
  | [], _ => 0
  | l :: ls, len => if l.length ≤ len then 1 + completeLines ls (len - (l.length + 1)) else 0

/-- How many bytes of an incomplete line follow them. -/
def leftover : List Bytes → Nat → Nat
  | [], len => len
  | l :: ls, len => if l.length ≤ len then leftover ls (len - (l.length + 1)) else len

end TcpInfo.Spec
