import Verif.Model.Disk
import Verif.Model.Path
/-!
# The files of command `tcp-info` by their paths

`Model.Disk` keeps what the compressor of each writer has put on disk by the number of the writer, as if every writer had a file of its own. Here files are found
under their paths: `os.Create` of a path that exists empties the file that is there, and several compressors can have the same file open.

Simplifications: nobody but this command creates, removes or renames the files; paths are relative to the output directory and denote the same file exactly if they
are equal as texts; writing to the file never fails (a compressor for which it does fails, `Zstd.Choice.crash`); nothing moves after a crash or after `main` has returned,
as in `Model.Disk`.
-/

namespace TcpInfo

/-- Contents of the files by path; `none`: there is no such file. -/
abbrev FileMap := List Char → Option Bytes

/-- What is under one path changes. -/
def FileMap.put (f : FileMap) (p : List Char) (b : Bytes) : FileMap := fun q => if q = p then some b else f q

/-- `write(2)` to a file with the contents `c` through a descriptor with the offset `o`, which may lie behind the end of the file if the file has been emptied by
somebody else meanwhile: the gap reads as zeros. (`os.Create` does not set O_APPEND.) -/
def writeAt (c : Bytes) (o : Nat) (b : Bytes) : Bytes := (c ++ List.replicate (o - c.length) 0).take o ++ b ++ c.drop (o + b.length)

/-- The command, its writers, and the file system. -/
structure Tree where
  disk : Disk
  files : FileMap
  /-- the path under which a writer's file was created -/
  path : Nat → Option (List Char)
  /-- everything the writer's compressor has written to its standard output; so its length is the offset of the descriptor, `f` in zstd/zstd.go:70-76 -/
  out : Nat → Bytes

/-- main.go:138-144, see `diskInit`; `files` is what earlier runs (or others) have left in the output directory. -/
def treeInit (bs : List MessageBlock) (n : Nat) (files : FileMap) : Tree := ⟨diskInit bs n, files, fun _ => none, fun _ => []⟩

/-- Who moves: somebody as in `DChoice`, or a compressor writes `b` to its standard output. -/
inductive TChoice where
  | disk (c : DChoice)
  | output (w : Nat) (b : Bytes)
  deriving DecidableEq

/-- saver/saver.go:133: the file that the saver's goroutine creates in this step, with its path. -/
def Disk.creates (d : Disk) (c : DChoice) : Option (Nat × List Char) :=
  match c, d.proc.m.rem, d.saverIn with
  | .proc .saver, .openFile w n _ :: _, false => some (w, n.path)
  | _, _, _ => none

/-- A compressor that exits successfully has put out something that decompresses to all it has read (`unz`: the decompressor's function; nothing else is assumed
about the format). -/
def Tree.mayStep (unz : Bytes → Option Bytes) (t : Tree) (c : DChoice) : Bool :=
  match c with
  | .zstd w .finish => (t.disk.writers w).all (fun z => decide (unz (t.out w) = some z.consumed))
  | _ => true

/-- One step. zstd/zstd.go:70 `os.Create(filename)` makes or empties the file; zstd/zstd.go:75-76 the compressor writes to that file through the descriptor it has
inherited. -/
def Tree.step (me : MEnv) (env : Env) (cap : Nat) (unz : Bytes → Option Bytes) (t : Tree) (c : TChoice) : Option Tree :=
  match c with
  | .disk c =>
    if t.mayStep unz c then
      (t.disk.step me env cap c).map (fun d => match t.disk.creates c with
        | none => { t with disk := d }
        | some (w, p) => { disk := d, files := t.files.put p [], path := fun v => if v = w then some p else t.path v, out := fun v => if v = w then [] else t.out v })
    else none
  | .output w b =>
    if t.disk.proc.m.crashed ∨ t.disk.proc.pc = .returned then none
    else match t.disk.writers w, t.path w with
      | some z, some p =>
        if z.child = .running then
          some { t with files := t.files.put p (writeAt ((t.files p).getD []) (t.out w).length b), out := fun v => if v = w then t.out w ++ b else t.out v }
        else none
      | _, _ => none

/-- Run a schedule. -/
def Tree.exec (me : MEnv) (env : Env) (cap : Nat) (unz : Bytes → Option Bytes) : List TChoice → Tree → Option Tree
  | [], t => some t
  | c :: cs, t => (t.step me env cap unz c).bind (Tree.exec me env cap unz cs)

/-- The command after schedule `cs`, when the collector submits the blocks `bs` and the output directory had the files `files` at the start. -/
def runTree (me : MEnv) (env : Env) (cap : Nat) (unz : Bytes → Option Bytes) (bs : List MessageBlock) (files : FileMap) (cs : List TChoice) : Option Tree :=
  Tree.exec me env cap unz cs (treeInit bs env.marshallers files)

end TcpInfo
