import Verif.Model.Saver
/-!
# Package saver: the marshaller goroutines

The saver goroutine and the marshallers run concurrently. The saver's program is the list of its actions (`Model.Saver`); an execution interleaves its
steps with those of the marshallers, as chosen by a schedule. Simplifications: `Write` and `Close` of a writer return eventually and do not fail (their
errors are ignored by the code); the two writes of `writeHeader` are one step (no other goroutine has the writer yet), and so is the closing of all
channels (each concerns one marshaller only); event server and metrics calls return at once.
-/

namespace TcpInfo

/-- What happens to a writer. -/
inductive FileOp where
  | data (b : Bytes)
  | close
  deriving DecidableEq

/-- Where a marshaller goroutine is in `runMarshaller` (saver/saver.go:65-85). -/
inductive PC where
  /-- at `range taskChan` -/
  | idle
  /-- has received a task -/
  | got (t : Task)
  /-- before `task.Writer.Write(b)` -/
  | write1 (w : Nat) (b : Bytes)
  /-- before `task.Writer.Write([]byte("\n"))` -/
  | write2 (w : Nat)
  /-- after `wg.Done()` -/
  | exited
  deriving DecidableEq

/-- A marshaller: its channel (capacity 100, saver/saver.go:88) and its position. -/
structure Worker where
  queue : List Task
  pc : PC
  deriving DecidableEq

/-- Parameters: the anonymizer and `json.Marshal`. -/
structure MEnv where
  anon : Anonymizer
  json : ArchivalRecord → Bytes

/-- Global state: the rest of the saver's program, the marshallers, what has happened to each writer, whether the channels are closed, the counter of
the wait group `Done`, and whether the process has crashed. -/
structure MState where
  rem : List Action
  workers : List Worker
  files : Nat → List FileOp
  closed : Bool
  wg : Nat
  crashed : Bool

/-- Start: `NewSaver` has made the marshallers (saver/saver.go:218-230, 87-92 `newMarshaller`: the counter is 1 plus one per marshaller). -/
def mInit (prog : List Action) (n : Nat) : MState :=
  { rem := prog, workers := List.replicate n ⟨[], .idle⟩, files := fun _ => [], closed := false, wg := n + 1, crashed := false }

/-- Append to what has happened to writer `w`. -/
def MState.op (st : MState) (w : Nat) (o : List FileOp) : MState :=
  { st with files := fun w' => if w' = w then st.files w' ++ o else st.files w' }

/-- saver/saver.go:65-85: `task.Message.RawIDM.Anonymize(anon)`, in place; `none` if it returns an error. -/
def anonymizeRecord (anon : Anonymizer) (r : ArchivalRecord) : Option ArchivalRecord :=
  match anonymizeRaw anon (r.rawIDM.getD []) with
  | (none, raw) => some { r with rawIDM := some raw }
  | (some _, _) => none

/-- Newline. -/
def nl : Bytes := [10]

/-- Next step of the saver goroutine; `none` if it is blocked or has finished. A send to a marshaller that does not exist is an index panic,
sending on or closing a closed channel panics (Go specification). -/
def MState.saverStep (me : MEnv) (st : MState) : Option MState :=
  match st.rem with
  | [] => none
  | .openFile w _ h :: rem => some ({ st with rem := rem }.op w [.data (me.json h), .data nl])
  | .send q t :: rem =>
    match st.workers[q]? with
    | none => some { st with crashed := true }
    | some wk =>
      if st.closed then some { st with crashed := true }
      else if wk.queue.length < 100 then some { st with rem := rem, workers := st.workers.set q { wk with queue := wk.queue ++ [t] } } else none
  | .closeChans :: rem => if st.closed then some { st with crashed := true } else some { st with rem := rem, closed := true, wg := st.wg - 1 }
  | _ :: rem => some { st with rem := rem }

/-- saver/saver.go:65-85 `runMarshaller`: next step of marshaller `i`; `none` if it is blocked or has finished. -/
def MState.workerStep (me : MEnv) (st : MState) (i : Nat) : Option MState :=
  match st.workers[i]? with
  | none => none
  | some wk =>
    let goto := fun (st : MState) pc => { st with workers := st.workers.set i { wk with pc := pc } }
    match wk.pc with
    | .idle =>
      match wk.queue with
      | t :: ts => some { st with workers := st.workers.set i ⟨ts, .got t⟩ }
      | [] => if st.closed then some { goto st .exited with wg := st.wg - 1 } else none
    | .got ⟨none, none⟩ => some { st with crashed := true }
    | .got ⟨none, some w⟩ => some ((goto st .idle).op w [.close])
    | .got ⟨some _, none⟩ => some { st with crashed := true }
    | .got ⟨some r, some w⟩ =>
      match anonymizeRecord me.anon r with
      | none => some (goto st .idle)
      | some r' => some (goto st (.write1 w (me.json r')))
    | .write1 w b => some ((goto st (.write2 w)).op w [.data b])
    | .write2 w => some ((goto st .idle).op w [.data nl])
    | .exited => none

/-- A schedule chooses a goroutine at each step. -/
inductive Choice where
  | saver
  | worker (i : Nat)
  deriving DecidableEq

/-- One step; `none` if the chosen goroutine cannot move. -/
def MState.step (me : MEnv) (st : MState) (c : Choice) : Option MState :=
  if st.crashed then none
  else match c with
    | .saver => st.saverStep me
    | .worker i => st.workerStep me i

/-- Run a schedule. -/
def MState.exec (me : MEnv) : List Choice → MState → Option MState
  | [], st => some st
  | c :: cs, st => (st.step me c).bind (MState.exec me cs)

end TcpInfo
