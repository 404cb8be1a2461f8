import Verif.Model.Saver
import Verif.Model.Text
import Verif.Model.Strings
/-!
# Names of output files as text (package saver)

`Model/Saver.lean` keeps a file name as its three components; here is the text. Paths are lists of characters.
-/

namespace TcpInfo

/-- `%0wd` of an unsigned number: at least `w` digits. -/
def fmtPad (w n : Nat) : List Char := List.replicate (w - (fmtNat n).length) '0' ++ fmtNat n

/-- `t.Format("2006/01/02")` (saver/saver.go:121, 126) of a time in UTC, which is a number of nanoseconds since the Unix epoch. The year has at least four
digits. (saver/saver.go:125, 344 and 345 convert the times to UTC.) -/
def datePath (t : Int) : List Char :=
  let c := civil (t / nsPerSec / 86400)
  (if c.1 < 0 then ['-'] else []) ++ fmtPad 4 c.1.natAbs ++ '/' :: (fmtPad 2 c.2.1 ++ '/' :: fmtPad 2 c.2.2)

/-- saver/saver.go:133 `fmt.Sprintf("%s/%s.%05d.jsonl.zst", datePath, id, conn.Sequence)`. -/
def FileName.path (n : FileName) : List Char :=
  n.dir.toList ++ '/' :: (n.uuid.toList ++ '.' :: (fmtPad 5 n.sequence ++ ".jsonl.zst".toList))

end TcpInfo
