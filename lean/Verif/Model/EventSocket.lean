import Verif.Model.InetDiag
/-!
# Package eventsocket: the server

The goroutines of the server, the emitter of events (the saver) and the clients' connections, as a state machine. A connection is identified by a
number. Simplifications: waiting for the mutex is not a step of its own (only `sendToAllListeners` holds it over more than one step); once a write to a
connection has failed, all later ones fail (stream socket), and a failed write may have delivered a strict prefix of its data; a write to a `stalled`
connection (its buffer is full and the client does not read) does not return. The wait group and the metrics are left out.
-/

namespace TcpInfo.EventSocket
open TcpInfo

/-- eventsocket/server.go:34-39 `FlowEvent`. -/
structure FlowEvent where
  event : Int
  timestamp : Int
  uuid : String
  id : Option SockID
  deriving DecidableEq, Inhabited

/-- eventsocket/server.go:24-29. -/
abbrev Open : Int := 0
abbrev Close : Int := 1

/-- eventsocket/server.go:169-177: what `FlowCreated` sends. -/
def flowCreated (t : Int) (uuid : String) (id : SockID) : FlowEvent := ⟨Open, t, uuid, some id⟩
/-- eventsocket/server.go:180-186: what `FlowDeleted` sends. -/
def flowDeleted (t : Int) (uuid : String) : FlowEvent := ⟨Close, t, uuid, none⟩

/-- Parameters: `json.Marshal` (`none`: error) and the clients that do not read. -/
structure Env where
  marshal : FlowEvent → Option Bytes
  stalled : Nat → Bool

/-- What `fmt.Fprintln(c, data)` writes, in one call of `Write`. -/
def line (b : Bytes) : Bytes := b ++ [10]

/-- Where `notifyClients` is (eventsocket/server.go:97-113). -/
inductive NPC where
  /-- at the loop condition -/
  | check
  /-- at `<-s.eventC` -/
  | recv
  /-- has an event -/
  | got (e : FlowEvent)
  /-- in `sendToAllListeners`, holding the mutex; `rem`: connections not yet visited -/
  | send (data : Bytes) (rem : List Nat)
  | exited
  deriving DecidableEq

/-- Where `Serve` is (eventsocket/server.go:136-166): in its loop, or before `addClient`. -/
inductive SPC where
  | accept
  | adding (c : Nat)
  | exited
  deriving DecidableEq

/-- State. `emitted`, `distributed`, `known`, `regAt`, `failedAt` are histories. -/
structure State where
  /-- events the saver is going to emit -/
  todo : List FlowEvent
  /-- events whose `FlowCreated`/`FlowDeleted` got them into the channel -/
  emitted : List FlowEvent
  queue : List FlowEvent
  /-- the listener and `eventC` are closed -/
  closed : Bool
  crashed : Bool
  cancelled : Bool
  npc : NPC
  spc : SPC
  clients : List Nat
  /-- started `go s.removeClient(c)` -/
  removing : List Nat
  /-- events passed to `sendToAllListeners` -/
  distributed : List FlowEvent
  /-- connections accepted so far -/
  known : List Nat
  /-- length of `distributed` when the connection was added -/
  regAt : Nat → Option Nat
  /-- number of the event (index in `distributed`) whose write failed first -/
  failedAt : Nat → Option Nat
  /-- bytes delivered to the peer -/
  delivered : Nat → Bytes

/-- eventsocket/server.go:189-196 `New`, 119-131 `Listen`, start of `Serve`. -/
def init (todo : List FlowEvent) : State :=
  { todo := todo, emitted := [], queue := [], closed := false, crashed := false, cancelled := false, npc := .check, spc := .accept, clients := [],
    removing := [], distributed := [], known := [], regAt := fun _ => none, failedAt := fun _ => none, delivered := fun _ => [] }

/-- Capacity of `eventC` (eventsocket/server.go:190). -/
abbrev chanCap : Nat := 100

/-- A scheduling decision. -/
inductive Choice where
  /-- the saver's next `FlowCreated` or `FlowDeleted` -/
  | produce
  /-- the context is cancelled -/
  | cancel
  /-- the cleanup goroutine of `Serve` -/
  | cleanup
  /-- `Accept` returns connection `c` -/
  | accept (c : Nat)
  /-- `Serve`: `addClient`, or the loop condition fails -/
  | serve
  /-- a goroutine `removeClient(c)` -/
  | remove (c : Nat)
  /-- `notifyClients` -/
  | notify
  /-- the iteration of `sendToAllListeners` visits `c` (map order is arbitrary), the write succeeds -/
  | write (c : Nat)
  /-- the same, the write fails after `k` bytes -/
  | fail (c : Nat) (k : Nat)
  deriving DecidableEq

/-- `f[c] := v`. -/
def upd {α : Type} (f : Nat → α) (c : Nat) (v : α) : Nat → α := fun x => if x = c then v else f x

/-- The mutex is held. -/
def State.locked (s : State) : Bool := match s.npc with | .send .. => true | _ => false

/-- eventsocket/server.go:169-186: a send on `eventC`: blocks while it is full, panics if it is closed. -/
def State.produce (s : State) : Option State :=
  match s.todo with
  | [] => none
  | e :: todo =>
    if s.closed then some { s with crashed := true }
    else if s.queue.length < chanCap then some { s with todo := todo, emitted := s.emitted ++ [e], queue := s.queue ++ [e] }
    else none

/-- eventsocket/server.go:97-113 `notifyClients` and the start and end of 80-95 `sendToAllListeners`. -/
def State.notify (env : Env) (s : State) : Option State :=
  match s.npc with
  | .check => some { s with npc := if s.cancelled then .exited else .recv }
  | .recv =>
    match s.queue with
    | e :: queue => some { s with npc := .got e, queue := queue }
    | [] => if s.closed then some { s with npc := .check } else none
  | .got e =>
    match env.marshal e with
    | none => some { s with npc := .check }
    | some b => some { s with npc := .send b s.clients, distributed := s.distributed ++ [e] }
  | .send _ [] => some { s with npc := .check }
  | .send _ (_ :: _) => none
  | .exited => none

/-- One step; `none`: not possible now. -/
def State.step (env : Env) (c : Choice) (s : State) : Option State :=
  if s.crashed then none else
  match c with
  | .produce => s.produce
  | .cancel => if s.cancelled then none else some { s with cancelled := true }
  | .cleanup => -- eventsocket/server.go:148-153
    if s.cancelled && !s.closed then some { s with closed := true } else none
  | .accept c => -- eventsocket/server.go:158
    if s.spc = .accept ∧ s.closed = false ∧ c ∉ s.known then some { s with spc := .adding c, known := s.known ++ [c] } else none
  | .serve => -- eventsocket/server.go:163, 60-65 `addClient`
    match s.spc with
    | .accept => if s.cancelled then some { s with spc := .exited } else none
    | .adding c =>
      if s.locked then none
      else some { s with spc := .accept, clients := s.clients ++ [c], regAt := upd s.regAt c (some s.distributed.length) }
    | .exited => none
  | .remove c => -- eventsocket/server.go:67-78 `removeClient`
    if c ∈ s.removing ∧ s.locked = false then
      some { s with removing := s.removing.erase c, clients := s.clients.filter (· ≠ c) }
    else none
  | .notify => s.notify env
  | .write c => -- eventsocket/server.go:83-84
    match s.npc with
    | .send b rem =>
      if c ∈ rem ∧ s.failedAt c = none ∧ env.stalled c = false then
        some { s with npc := .send b (rem.erase c), delivered := upd s.delivered c (s.delivered c ++ line b) }
      else none
    | _ => none
  | .fail c k => -- eventsocket/server.go:84-93
    match s.npc with
    | .send b rem =>
      if c ∈ rem then
        match s.failedAt c with
        | some _ => some { s with npc := .send b (rem.erase c), removing := s.removing ++ [c] }
        | none =>
          if k < (line b).length then
            some { s with npc := .send b (rem.erase c), removing := s.removing ++ [c], failedAt := upd s.failedAt c (some (s.distributed.length - 1)),
                          delivered := upd s.delivered c (s.delivered c ++ (line b).take k) }
          else none
      else none
    | _ => none

/-- An execution. -/
def State.exec (env : Env) : List Choice → State → Option State
  | [], s => some s
  | c :: cs, s => (s.step env c).bind (State.exec env cs)

end TcpInfo.EventSocket
