import Verif.Model.Process
/-!
# What the goroutines of the process do to channels, wait group, files and records

`Model.Process` says what each step changes. Here each step also leaves entries in a log: the operations that synchronize goroutines, and the accesses to
things that several goroutines get hold of, which are the writers of the output files and the records.
Simplification (as in `Model.Process`): what the saver does with kept records while it handles a block is logged when the block is received.
-/

namespace TcpInfo

/-- The channels: `svrChan` (main.go:141) and the channels of the marshallers (saver/saver.go:88). -/
inductive Chan where
  | blocks
  | tasks (q : Nat)
  deriving DecidableEq

/-- `make(chan netlink.MessageBlock, 2)` (main.go:141), `make(chan Task, 100)` (saver/saver.go:88). -/
def Chan.capacity : Chan → Nat
  | .blocks => 2
  | .tasks _ => 100

/-- An operation of a goroutine. -/
inductive Op where
  | send (c : Chan)
  | recv (c : Chan)
  | close (c : Chan)
  /-- receive that returns because the channel is closed -/
  | ended (c : Chan)
  /-- `wg.Done()` -/
  | done
  /-- return of `svr.Done.Wait()` -/
  | wait
  /-- `Write` or `Close` of the writer of an output file -/
  | use (w : Nat)
  /-- the saver reads a record it has kept from the previous cycle (saver/saver.go:356, 367, 458-459, 469) -/
  | inspect (r : ArchivalRecord)
  /-- a marshaller overwrites the addresses of a record (saver/saver.go:74) and encodes it (saver/saver.go:79) -/
  | rewrite (r : ArchivalRecord)
  deriving DecidableEq

/-- The operations in order, each with the goroutine that did it. -/
abbrev Log := List (PChoice × Op)

/-- main.go:147-151: a block is sent, the channel is closed, `Wait` returns. -/
def Proc.mainOps (p : Proc) : List Op :=
  match p.pc with
  | .collecting =>
    match p.polls with
    | _ :: _ => [.send .blocks]
    | [] => [.close .blocks]
  | .waiting => [.wait]
  | .returned => []

/-- saver/saver.go:331-495: writes to a new file (139 of `Rotate`), tasks sent, all channels closed (492-495); otherwise a block is received (338) and the
records of the previous cycle are looked at, or the closed channel is noticed. -/
def Proc.saverOps (p : Proc) : List Op :=
  match p.m.rem with
  | .openFile w _ _ :: _ => [.use w]
  | .send q _ :: _ => [.send (.tasks q)]
  | .closeChans :: _ => (List.range p.m.workers.length).map (fun q => .close (.tasks q)) ++ [.done]
  | _ :: _ => []
  | [] =>
    match p.chan with
    | _ :: _ => .recv .blocks :: p.loop.svr.cache.previous.map (fun e => .inspect e.2)
    | [] => [.ended .blocks]

/-- saver/saver.go:65-85 `runMarshaller`. -/
def Proc.workerOps (p : Proc) (i : Nat) : List Op :=
  match p.m.workers[i]? with
  | none => []
  | some wk =>
    match wk.pc with
    | .idle =>
      match wk.queue with
      | _ :: _ => [.recv (.tasks i)]
      | [] => [.ended (.tasks i), .done]
    | .got ⟨none, some w⟩ => [.use w]
    | .got ⟨some r, _⟩ => [.rewrite r]
    | .got ⟨none, none⟩ => []
    | .write1 w _ => [.use w]
    | .write2 w => [.use w]
    | .exited => []

/-- What the next step of a goroutine does. -/
def Proc.ops (p : Proc) : PChoice → List Op
  | .main => p.mainOps
  | .saver => p.saverOps
  | .worker i => p.workerOps i

/-- Run a schedule (see `Proc.exec`), with the log. -/
def Proc.execLog (me : MEnv) (env : Env) : List PChoice → Proc → Log → Option (Proc × Log)
  | [], p, L => some (p, L)
  | c :: cs, p, L => (p.step me env c).bind (fun p' => Proc.execLog me env cs p' (L ++ (p.ops c).map (fun o => (c, o))))

end TcpInfo
