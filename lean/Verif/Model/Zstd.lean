import Verif.Model.Basic
/-!
# Package zstd: the writer

`NewWriter` connects a pipe to an external process. The state machine below interleaves the user of the writer, the goroutine started by `NewWriter`
and the external process. Simplifications: `close(2)` on an open descriptor succeeds; a pipe write moves any number of bytes that fits (the kernel
decides, so the schedule does); the compressor is a process that reads its standard input, exits successfully only at end of file and then has
written the compressed form of everything it read, and may fail or be killed at any moment. Descriptors held by an unreachable `os.File` may be closed
by a finalizer when the garbage collector runs; the model has no garbage collector.
-/

namespace TcpInfo.Zstd
open TcpInfo

/-- What the user of the writer does. -/
inductive Op where
  | write (b : Bytes)
  | close
  deriving DecidableEq

/-- What a call returned: `Write(b)` (was the error nil?), `Close()` (was the error nil?). -/
inductive Ret where
  | wrote (b : Bytes) (ok : Bool)
  | closed (ok : Bool)
  deriving DecidableEq

/-- Where the user's goroutine is. -/
inductive UPC where
  /-- between calls -/
  | out
  /-- in `Write(all)`, `rest` still to be written -/
  | writing (all rest : Bytes)
  /-- in `w.wg.Wait()` (zstd/zstd.go:55) -/
  | waiting
  deriving DecidableEq

/-- The external process. -/
inductive Child where
  | notStarted
  | running
  | exited (ok : Bool)
  deriving DecidableEq

/-- Where the goroutine of `NewWriter` is (zstd/zstd.go:78-85): in `cmd.Run()`, before `pipeR.Close()`, before `wg.Done()`, finished. -/
inductive GPC where
  | run | closeR | done | finished
  deriving DecidableEq

/-- State of one writer. `accepted`, `consumed` and `rets` are histories. -/
structure ZState where
  ops : List Op
  pc : UPC
  /-- `pipeW` is open in this process -/
  wOpen : Bool
  /-- `pipeR` is open in this process -/
  rOpen : Bool
  /-- `f` is open in this process -/
  fOpen : Bool
  pipe : Bytes
  child : Child
  gpc : GPC
  /-- the wait group has been released -/
  wgDone : Bool
  /-- everything that was put into the pipe -/
  accepted : Bytes
  /-- everything the compressor has read -/
  consumed : Bytes
  /-- the data whose complete compressed form is in the file -/
  disk : Option Bytes
  rets : List Ret
  deriving DecidableEq

/-- What `NewWriter` returns, and which descriptors of this process it leaves open: pipeR, pipeW, f. -/
inductive NewResult where
  | err (rOpen wOpen fOpen : Bool)
  | ok (s : ZState)

/-- zstd/zstd.go:63-88 `NewWriter`; `pipeOk`, `createOk`: whether `os.Pipe` and `os.Create` succeed. `ops` is what the user will do with the writer. -/
def newWriter (pipeOk createOk : Bool) (ops : List Op) : NewResult :=
  if !pipeOk then .err false false false
  else if !createOk then .err true true false
  else .ok { ops := ops, pc := .out, wOpen := true, rOpen := true, fOpen := true, pipe := [], child := .notStarted, gpc := .run, wgDone := false,
             accepted := [], consumed := [], disk := none, rets := [] }

/-- Some process has the read end open. -/
def ZState.hasReader (s : ZState) : Bool := s.rOpen || s.child == .running

/-- A scheduling decision. -/
inductive Choice where
  /-- next step of the user's goroutine; a pipe write moves `k` bytes -/
  | user (k : Nat)
  /-- next step of the goroutine of `NewWriter`; `startOk`: whether the process can be started -/
  | gor (startOk : Bool)
  /-- the process reads `k` bytes -/
  | read (k : Nat)
  /-- the process sees end of file and exits successfully -/
  | finish
  /-- the process fails or is killed -/
  | crash
  deriving DecidableEq

/-- The user's goroutine: `os.File.Write` (repeats `write(2)` until everything is written or an error occurs; `EPIPE` without readers; blocks on a full
pipe) and zstd/zstd.go:50-57 `waitingWriteCloser.Close`. `cap`: capacity of the pipe. -/
def ZState.userStep (cap k : Nat) (s : ZState) : Option ZState :=
  match s.pc with
  | .out =>
    match s.ops with
    | [] => none
    | .write b :: ops =>
      if s.wOpen then some { s with ops := ops, pc := .writing b b }
      else some { s with ops := ops, rets := s.rets ++ [.wrote b false] }
    | .close :: ops =>
      if s.wOpen then some { s with ops := ops, wOpen := false, pc := .waiting }
      else some { s with ops := ops, rets := s.rets ++ [.closed false] }
  | .writing all rest =>
    if rest = [] then some { s with pc := .out, rets := s.rets ++ [.wrote all true] }
    else if !s.hasReader then some { s with pc := .out, rets := s.rets ++ [.wrote all false] }
    else if 0 < k ∧ k ≤ rest.length ∧ s.pipe.length + k ≤ cap then
      some { s with pc := .writing all (rest.drop k), pipe := s.pipe ++ rest.take k, accepted := s.accepted ++ rest.take k }
    else none
  | .waiting =>
    if s.wgDone then some { s with pc := .out, rets := s.rets ++ [.closed true] } else none

/-- zstd/zstd.go:78-85: the goroutine. `cmd.Run` starts the process and waits for it; its error is only logged. -/
def ZState.gorStep (startOk : Bool) (s : ZState) : Option ZState :=
  match s.gpc with
  | .run =>
    match s.child with
    | .notStarted => some { s with child := if startOk then .running else .exited false }
    | .running => none
    | .exited _ => some { s with gpc := .closeR }
  | .closeR => some { s with gpc := .done, rOpen := false }
  | .done => some { s with gpc := .finished, wgDone := true }
  | .finished => none

/-- One step; `none` if the chosen step is not possible. -/
def ZState.step (cap : Nat) (c : Choice) (s : ZState) : Option ZState :=
  match c with
  | .user k => s.userStep cap k
  | .gor ok => s.gorStep ok
  | .read k =>
    if s.child = .running ∧ 0 < k ∧ k ≤ s.pipe.length then
      some { s with pipe := s.pipe.drop k, consumed := s.consumed ++ s.pipe.take k }
    else none
  | .finish =>
    if s.child = .running ∧ s.pipe = [] ∧ s.wOpen = false then some { s with child := .exited true, disk := some s.consumed } else none
  | .crash => if s.child = .running then some { s with child := .exited false } else none

/-- An execution. -/
def ZState.exec (cap : Nat) : List Choice → ZState → Option ZState
  | [], s => some s
  | c :: cs, s => (s.step cap c).bind (ZState.exec cap cs)

end TcpInfo.Zstd
