import Verif.Model.Process
import Verif.Model.Zstd
/-!
# Command `tcp-info` with its compressors

`Model.Process` lets the calls `Write` and `Close` of a writer return at once. Here every writer is one of package zstd (`Model.Zstd`): a call is begun,
the pipe, the goroutine of the writer and the compressor process take their steps, and the calling goroutine (saver or marshaller) goes on when the call
has returned. Simplifications: as in the two models; nothing moves after a crash or after `main` has returned.
-/

namespace TcpInfo

/-- Calls are made on a writer. -/
def Zstd.ZState.call (z : Zstd.ZState) (ops : List Zstd.Op) : Zstd.ZState := { z with ops := z.ops ++ ops }

/-- All calls have returned. -/
def Zstd.ZState.free (z : Zstd.ZState) : Bool := z.ops.isEmpty && decide (z.pc = .out)

/-- The process and its writers. -/
structure Disk where
  proc : Proc
  /-- the writers by number; `none`: not created -/
  writers : Nat → Option Zstd.ZState
  /-- the saver's goroutine is in `conn.writeHeader()` (saver/saver.go:138) -/
  saverIn : Bool
  /-- the marshaller is in `task.Writer.Write` or `task.Writer.Close` (saver/saver.go:68, 80, 81) -/
  workerIn : Nat → Bool

/-- main.go:138-144, see `procInit`. -/
def diskInit (bs : List MessageBlock) (n : Nat) : Disk := ⟨procInit bs n, fun _ => none, false, fun _ => false⟩

/-- Set the state of a writer. -/
def Disk.setWriter (d : Disk) (w : Nat) (z : Zstd.ZState) : Disk := { d with writers := fun w' => if w' = w then some z else d.writers w' }

/-- saver/saver.go:153-154: the two calls of `writeHeader`; its errors are ignored. -/
def headerCalls (me : MEnv) (h : ArchivalRecord) : List Zstd.Op := [.write (me.json h), .write nl]

/-- saver/saver.go:68, 80, 81: the call a marshaller makes next; the results are ignored. -/
def PC.call : PC → Option (Nat × Zstd.Op)
  | .got ⟨none, some w⟩ => some (w, .close)
  | .write1 w b => some (w, .write b)
  | .write2 w => some (w, .write nl)
  | _ => none

/-- saver/saver.go:133-138: `zstd.NewWriter` succeeds (if it fails there is no such action), then `writeHeader`; all else as in `Proc.saverStep`. -/
def Disk.saverStep (me : MEnv) (env : Env) (d : Disk) : Option Disk :=
  match d.proc.m.rem with
  | .openFile w _ h :: _ =>
    if d.saverIn then
      match d.writers w with
      | none => none
      | some z => if z.free then (d.proc.step me env .saver).map (fun p => { d with proc := p, saverIn := false }) else none
    else
      match Zstd.newWriter true true (headerCalls me h) with
      | .err _ _ _ => none
      | .ok z => some { d.setWriter w z with saverIn := true }
  | _ => (d.proc.step me env .saver).map (fun p => { d with proc := p })

/-- saver/saver.go:65-85 `runMarshaller`: begin the call, or end it when it has returned; all else as in `MState.workerStep`. -/
def Disk.workerStep (me : MEnv) (env : Env) (d : Disk) (i : Nat) : Option Disk :=
  match (d.proc.m.workers[i]?).bind (fun wk => wk.pc.call) with
  | none => (d.proc.step me env (.worker i)).map (fun p => { d with proc := p })
  | some (w, op) =>
    match d.writers w with
    | none => none
    | some z =>
      if d.workerIn i then
        if z.free then (d.proc.step me env (.worker i)).map (fun p => { d with proc := p, workerIn := fun j => if j = i then false else d.workerIn j })
        else none
      else some { d.setWriter w (z.call [op]) with workerIn := fun j => if j = i then true else d.workerIn j }

/-- Who moves: a goroutine of the command, or something that belongs to a writer (see `Zstd.Choice`; `user` there is the call in progress). -/
inductive DChoice where
  | proc (c : PChoice)
  | zstd (w : Nat) (c : Zstd.Choice)
  deriving DecidableEq

/-- One step; `cap` is the capacity of a pipe. -/
def Disk.step (me : MEnv) (env : Env) (cap : Nat) (d : Disk) (c : DChoice) : Option Disk :=
  if d.proc.m.crashed ∨ d.proc.pc = .returned then none
  else match c with
    | .proc .main => (d.proc.step me env .main).map (fun p => { d with proc := p })
    | .proc .saver => d.saverStep me env
    | .proc (.worker i) => d.workerStep me env i
    | .zstd w c => (d.writers w).bind (fun z => (z.step cap c).map (fun z => d.setWriter w z))

/-- Run a schedule. -/
def Disk.exec (me : MEnv) (env : Env) (cap : Nat) : List DChoice → Disk → Option Disk
  | [], d => some d
  | c :: cs, d => (d.step me env cap c).bind (Disk.exec me env cap cs)

/-- The command after schedule `cs` when the collector submits the blocks `bs`. -/
def runDisk (me : MEnv) (env : Env) (cap : Nat) (bs : List MessageBlock) (cs : List DChoice) : Option Disk :=
  Disk.exec me env cap cs (diskInit bs env.marshallers)

end TcpInfo
