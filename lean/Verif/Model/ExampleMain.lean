import Verif.Model.ExampleClient
/-!
# Command example-eventsocket-client: the program

`main` starts two goroutines and waits (cmd/example-eventsocket-client/main.go:66-87). `MustRun` is represented by its calls of the handler and by how it ends (`mustRun`
in `Model.EventClient`), for the bytes that come from the socket. Simplification: the flag is given and the connection can be made.
-/

namespace TcpInfo.Example
open TcpInfo TcpInfo.EventSocket

/-- The program: the goroutines, how `MustRun` has ended (`none`: it is running), whether `main` has returned. -/
structure Prog where
  ex : State
  ending : Option Ending
  exited : Bool
  deriving DecidableEq

/-- Lines 66-84. -/
def Prog.start (src : Source) : Prog := { ex := init (mustRun src).1, ending := none, exited := false }

/-- A scheduling decision: a call of the handler, the end of `MustRun`, a step of `ProcessOpenEvents`, of `main`. -/
inductive ProgChoice where
  | handler | mustRunEnds | process (done : Bool) | main
  deriving DecidableEq

/-- The process has ended: `main` has returned or `rtx.Must` has ended it. -/
def Prog.over (p : Prog) : Bool := p.exited || (match p.ending with | some (.fatal _) => true | _ => false)

/-- One step; `none` if it is not possible. `MustRun` cancels only the context it has made itself (eventsocket/client.go:35-36); `mainCancel` is called
when `main` returns (main.go:67), which waits for `mainCtx` to be done (main.go:86). -/
def Prog.step (src : Source) (p : Prog) (c : ProgChoice) : Option Prog :=
  if p.over then none
  else match c with
    | .handler => (p.ex.step .handler).map (fun ex => { p with ex := ex })
    | .mustRunEnds => if p.ex.calls = [] ∧ p.ending = none then some { p with ending := some (mustRun src).2 } else none
    | .process d => (p.ex.step (.process d)).map (fun ex => { p with ex := ex })
    | .main => if p.ex.cancelled then some { p with exited := true } else none

/-- An execution. -/
def Prog.exec (src : Source) : List ProgChoice → Prog → Option Prog
  | [], p => some p
  | c :: cs, p => (p.step src c).bind (Prog.exec src cs)

end TcpInfo.Example
