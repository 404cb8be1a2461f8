import Verif.Model.Path
/-!
# Command `tcp-info` (main.go): from the flags to the first poll

Directories are lists of components from the root; symbolic links are not considered. Names of abstract sockets (beginning with `@`) are treated like others.
-/

namespace TcpInfo.Startup

/-- The components of a path: split at slashes; empty ones and `.` mean nothing. -/
def components (p : List Char) : List (List Char) := go p [] where
  go : List Char → List Char → List (List Char)
    | [], cur => push cur
    | c :: cs, cur => if c = '/' then push cur ++ go cs [] else go cs (cur ++ [c])
  push (cur : List Char) : List (List Char) := if cur = [] ∨ cur = ['.'] then [] else [cur]

/-- Following components from a directory. -/
def walk (dir : List (List Char)) : List (List Char) → List (List Char)
  | [] => dir
  | c :: cs => if c = ['.', '.'] then walk dir.dropLast cs else walk (dir ++ [c]) cs

/-- Which file the operating system finds under a name in a process with this current directory. -/
def resolve (cwd : List (List Char)) (p : List Char) : List (List Char) :=
  walk (if p.head? = some '/' then [] else cwd) (components p)

/-- main.go:54-71 and eventsocket/client.go:21: the flags that play a part. -/
structure Flags where
  output : List Char
  trace : Bool
  socket : List Char
  deriving DecidableEq

/-- What the program asks of the system before it polls; files are absolute. -/
inductive Act where
  | mkdirAll (dir : List (List Char))
  | chdir (dir : List (List Char))
  | serveMetrics
  | createTrace (file : List (List Char))
  | startTrace
  | removeSocket (file : List (List Char))
  | listen (file : List (List Char))
  | serve
  deriving DecidableEq

/-- The current directory from main.go:90 on. -/
def workDir (f : Flags) (cwd : List (List Char)) : List (List Char) := if f.output = [] then cwd else resolve cwd f.output

/-- main.go:87-113 in order. `true`: if it fails the program ends there (`rtx.Must`, `rtx.PanicOnError`, `MustServeMetrics`); `false`: it cannot fail or the
error is ignored (eventsocket/server.go:128). Without a socket name the null server is used (main.go:108-111; eventsocket/server.go:198-211 `nullServer`, `NullServer`: every method does nothing). -/
def acts (f : Flags) (cwd : List (List Char)) : List (Act × Bool) :=
  let wd := workDir f cwd
  (if f.output ≠ [] then [(.mkdirAll wd, true), (.chdir wd, true)] else [])
  ++ [(.serveMetrics, true)]
  ++ (if f.trace then [(.createTrace (resolve wd "trace".toList), true), (.startTrace, true)] else [])
  ++ (if f.socket ≠ [] then [(.removeSocket (resolve wd f.socket), false), (.listen (resolve wd f.socket), true), (.serve, false)] else [])

/-- Running them, `ok` tells which ones succeed: what has been tried, and whether `main` goes on to make the saver and to poll (main.go:115-147). -/
def run (ok : Act → Bool) : List (Act × Bool) → List Act × Bool
  | [] => ([], true)
  | (a, fatal) :: rest => if fatal && !ok a then ([a], false) else (a :: (run ok rest).1, (run ok rest).2)

/-- main.go:87-113. -/
def start (ok : Act → Bool) (f : Flags) (cwd : List (List Char)) : List Act × Bool := run ok (acts f cwd)

end TcpInfo.Startup
