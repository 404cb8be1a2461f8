import Verif.Model.Csv
import Verif.Model.ZstdReader
/-!
# cmd/csvtool: the command line

The program as a whole: which source it reads, when it stops reading, how it ends. Simplification: standard output can always be written.
-/

namespace TcpInfo
open Zstd (DReachable)

/-- A file: what reading it gives; what `zstd -d` makes of it, and whether it is a complete, undamaged zstd file (see `Model/ZstdReader.lean`). -/
structure CsvFile where
  raw : Source
  data : Bytes
  good : Bool

/-- How the program ends: with a table on standard output and status 0; by `log.Fatal` (status 1); by a panic (status 2). -/
inductive CsvEnd where
  | printed (out : Bytes)
  | fatal
  | panicked
  deriving DecidableEq

/-- cmd/csvtool/main.go:58-60: `rtx.Must` ends the program. -/
def CsvEnd.ofRes : Res GoErr Bytes → CsvEnd
  | .ok out => .printed out
  | .err _ => .fatal
  | .panic => .panicked

/-- Has `LoadAll` (snapshot/snapshot.go:307-329) stopped reading, when it has got the bytes `b` and, if `eof`, the end of the file? It reads until the end, until a line
is too long for the scanner, or until the first line that cannot be decoded. -/
def LoadStopped (b : Bytes) (eof : Bool) : Prop :=
  eof = true ∨ (scanLines [] b).2 = true
    ∨ ∃ p r, b = p ++ 10 :: r ∧ ∀ x, loadAll (archiveStream ⟨p ++ [10], .eof⟩) ≠ .ok x

/-- cmd/csvtool/main.go:42-61 `main` and 33-38 `openFile`, with the arguments after the name of the program: the ways in which it can end. `cap`: capacity of
the pipe between `zstd` and the program. -/
inductive CsvRun (zone : Int → Int) (cap : Nat) (stdin : Source) (fs : List Char → Option CsvFile) : List (List Char) → CsvEnd → Prop where
  /-- no argument: standard input -/
  | stdin : CsvRun zone cap stdin fs [] (CsvEnd.ofRes (csvtool zone stdin))
  /-- more than one: `logFatal` -/
  | usage (a b : List Char) (rest : List (List Char)) : CsvRun zone cap stdin fs (a :: b :: rest) .fatal
  /-- a file that cannot be opened: `rtx.Must`, here or in `zstd.NewReader` -/
  | missing (name : List Char) : fs name = none → CsvRun zone cap stdin fs [name] .fatal
  /-- a file that is read as it is -/
  | plain (name : List Char) (f : CsvFile) : fs name = some f → decompresses name = false → CsvRun zone cap stdin fs [name] (CsvEnd.ofRes (csvtool zone f.raw))
  /-- a file read through `zstd.NewReader`: `LoadAll` stops reading -/
  | zst (name : List Char) (f : CsvFile) (d : Zstd.DState) : fs name = some f → decompresses name = true → DReachable cap f.data f.good d →
      LoadStopped d.received d.eof → CsvRun zone cap stdin fs [name] (CsvEnd.ofRes (csvtool zone ⟨d.received, .eof⟩))
  /-- ... the decompressor fails before that (zstd/zstd.go:38) -/
  | zstFatal (name : List Char) (f : CsvFile) (d : Zstd.DState) : fs name = some f → decompresses name = true → DReachable cap f.data f.good d →
      d.fatal = true → CsvRun zone cap stdin fs [name] .fatal

end TcpInfo
