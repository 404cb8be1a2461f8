import Verif.Model.Basic
/-!
# Package eventsocket: the file name of the socket

What `Listen`, the end of `Serve` and the end of a process do with the file under which clients find the server, for any number of servers (processes) with the
same file name, one after the other or at the same time. Simplification: nothing else uses this file name while they run.
-/

namespace TcpInfo.SocketFile

/-- What there is under the file name. -/
inductive Node where
  | absent
  /-- a socket, bound by this server -/
  | socket (server : Nat)
  /-- something else that can be removed -/
  | other
  /-- a directory that is not empty -/
  | full
  deriving DecidableEq

/-- The file name and the servers: `listening`: have an open listener; `used`: have called `Listen`; `results`: what these calls returned. -/
structure State where
  node : Node
  listening : List Nat
  used : List Nat
  results : List (Nat × Bool)
  deriving DecidableEq

/-- Before the first server is started. -/
def init (n : Node) : State := { node := n, listening := [], used := [], results := [] }

/-- What happens. -/
inductive Op where
  /-- a new server calls `Listen` -/
  | listen (i : Nat)
  /-- the context of `Serve` is cancelled, the listener is closed -/
  | close (i : Nat)
  /-- the process of the server is killed or returns from main without that -/
  | crash (i : Nat)
  deriving DecidableEq

/-- `os.Remove` (eventsocket/server.go:128), its error is ignored. -/
def remove : Node → Node
  | .full => .full
  | _ => .absent

/-- bind(2) of `net.Listen("unix", s.filename)` (eventsocket/server.go:129): fails if something is there. `dirOK`: the directory exists and can be
written, and the name is not too long. -/
def bind (dirOK : Bool) (i : Nat) (n : Node) : Option Node := if dirOK ∧ n = .absent then some (.socket i) else none

/-- `unlink(2)` when a `net.UnixListener` made by `net.Listen` is closed (eventsocket/server.go:150): removes whatever is there, except directories. -/
def unlink : Node → Node
  | .full => .full
  | _ => .absent

/-- One step; `none` if it is not possible. eventsocket/server.go:119-131 `Listen`; 148-153. -/
def State.step (dirOK : Bool) (s : State) : Op → Option State
  | .listen i =>
    if i ∈ s.used then none
    else
      let n := if dirOK then remove s.node else s.node
      match bind dirOK i n with
      | some n' => some { node := n', listening := i :: s.listening, used := i :: s.used, results := s.results ++ [(i, true)] }
      | none => some { s with node := n, used := i :: s.used, results := s.results ++ [(i, false)] }
  | .close i => if i ∈ s.listening then some { s with node := unlink s.node, listening := s.listening.erase i } else none
  | .crash i => if i ∈ s.listening then some { s with listening := s.listening.erase i } else none

/-- A history. -/
def State.exec (dirOK : Bool) : List Op → State → Option State
  | [], s => some s
  | o :: os, s => (s.step dirOK o).bind (State.exec dirOK os)

/-- `net.Dial("unix", socket)` (eventsocket/client.go:37): the server it reaches. -/
def State.dial (s : State) : Option Nat :=
  match s.node with
  | .socket i => if i ∈ s.listening then some i else none
  | _ => none

end TcpInfo.SocketFile
