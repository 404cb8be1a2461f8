import Verif.Model.Basic
/-!
# Package zstd: the reader

`NewReader` starts `zstd -d -c filename` with its standard output connected to a pipe. The state machine interleaves the user of the reader, the goroutine
started by `NewReader` and the external process. Simplifications: the file is represented by what can be decompressed of it (`data`) and whether it is
complete and undamaged (`good`); the decompressor writes its output in pieces chosen by the schedule, exits successfully only when all of a good file is
written, fails at the end of the decompressible part of a bad one, fails (or is killed by SIGPIPE) when it writes to a pipe that nobody can read, and may
fail at any moment; `close(2)` on an open descriptor succeeds; `rtx.Must` with an error is `log.Fatal`, which ends the process.
-/

namespace TcpInfo.Zstd
open TcpInfo

/-- The decompressor process. -/
inductive DChild where
  | notStarted
  | running
  | exited (ok : Bool)
  deriving DecidableEq

/-- Where the goroutine of `NewReader` is (zstd/zstd.go:37-40): in `cmd.Run()`, before `pipeW.Close()`, finished. -/
inductive DPC where
  | run | closeW | finished
  deriving DecidableEq

/-- State of one reader. -/
structure DState where
  /-- the decompressible part of the file, and whether it is all of a complete file -/
  data : Bytes
  good : Bool
  /-- what the decompressor has not written yet -/
  rest : Bytes
  child : DChild
  gpc : DPC
  pipe : Bytes
  /-- `pipeR`, `pipeW` are open in this process -/
  rOpen : Bool
  wOpen : Bool
  /-- what the user has read; whether a `Read` has returned `io.EOF` -/
  received : Bytes
  eof : Bool
  /-- this process has been ended by `log.Fatal` -/
  fatal : Bool
  deriving DecidableEq

/-- zstd/zstd.go:26-43 `NewReader`; `none`: the process is ended by `rtx.Must` (`os.Pipe` or `os.Open` failed). -/
def newReader (pipeOk openOk : Bool) (data : Bytes) (good : Bool) : Option DState :=
  if pipeOk && openOk then
    some { data := data, good := good, rest := data, child := .notStarted, gpc := .run, pipe := [], rOpen := true, wOpen := true, received := [], eof := false,
           fatal := false }
  else none

/-- A scheduling decision. -/
inductive DChoice where
  /-- next step of the goroutine of `NewReader`; `startOk`: whether the process can be started -/
  | gor (startOk : Bool)
  /-- the decompressor writes `k` bytes -/
  | write (k : Nat)
  /-- the decompressor comes to the end of the file -/
  | finish
  /-- the decompressor fails -/
  | crash
  /-- the user reads: `k` bytes, or end of file -/
  | read (k : Nat)
  /-- the user calls `Close` -/
  | close
  deriving DecidableEq

/-- zstd/zstd.go:37-40: the goroutine. -/
def DState.gorStep (startOk : Bool) (s : DState) : Option DState :=
  match s.gpc with
  | .run =>
    match s.child with
    | .notStarted => some { s with child := if startOk then .running else .exited false }
    | .running => none
    | .exited true => some { s with gpc := .closeW }
    | .exited false => some { s with fatal := true }
  | .closeW => some { s with gpc := .finished, wOpen := false }
  | .finished => none

/-- `write(2)` of the decompressor on the pipe. -/
def DState.childWrite (cap k : Nat) (s : DState) : Option DState :=
  if s.child = .running ∧ 0 < k ∧ k ≤ s.rest.length then
    if s.rOpen = false then some { s with child := .exited false }
    else if s.pipe.length + k ≤ cap then some { s with pipe := s.pipe ++ s.rest.take k, rest := s.rest.drop k }
    else none
  else none

/-- `os.File.Read` on the pipe: blocks while the pipe is empty and some process can write to it. -/
def DState.userRead (k : Nat) (s : DState) : Option DState :=
  if s.rOpen = false then none
  else if 0 < k ∧ k ≤ s.pipe.length then some { s with pipe := s.pipe.drop k, received := s.received ++ s.pipe.take k }
  else if s.pipe = [] ∧ s.wOpen = false ∧ s.child ≠ .running then some { s with eof := true }
  else none

/-- One step; `none` if the chosen step is not possible. -/
def DState.step (cap : Nat) (c : DChoice) (s : DState) : Option DState :=
  if s.fatal then none
  else match c with
    | .gor ok => s.gorStep ok
    | .write k => s.childWrite cap k
    | .finish => if s.child = .running ∧ s.rest = [] then some { s with child := .exited s.good } else none
    | .crash => if s.child = .running then some { s with child := .exited false } else none
    | .read k => s.userRead k
    | .close => if s.rOpen then some { s with rOpen := false } else none

/-- An execution. -/
def DState.exec (cap : Nat) : List DChoice → DState → Option DState
  | [], s => some s
  | c :: cs, s => (s.step cap c).bind (DState.exec cap cs)

/-- Reached by some schedule after a successful `NewReader` on a file. -/
def DReachable (cap : Nat) (data : Bytes) (good : Bool) (s : DState) : Prop :=
  ∃ s0 cs, newReader true true data good = some s0 ∧ s0.exec cap cs = some s

end TcpInfo.Zstd
