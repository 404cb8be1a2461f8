import Verif.Model.Saver
/-!
# Attempts to create files

Each function lists the attempts to create a file made by the function of the code that it is named after, in their order, with their outcomes. The control
flow is that of the models of these functions in `Model.Saver`.
-/

namespace TcpInfo

/-- saver/saver.go:128-136 of `Rotate`: the directory and the file are created for a connection. `position` is the number of actions of the saver before. -/
structure Creation where
  position : Nat
  cookie : UInt64
  ok : Bool
  deriving DecidableEq

/-- saver/saver.go:120-142 `Rotate`. -/
def rotateCreates (env : Env) (s : Saver) (cookie : UInt64) (conn : Conn) : List Creation :=
  [⟨s.trace.length, cookie, env.createOK (s.rotateDir env conn).1.tick⟩]

/-- saver/saver.go:248-288 `queue`. -/
def queueCreates (env : Env) (s : Saver) (msg : ArchivalRecord) : List Creation :=
  match parseIDM msg.raw with
  | .ok idm =>
    let cookie := cookieOf idm
    if cookie = 0 then []
    else if env.marshallers < 1 then []
    else
      let sc := s.getConn env cookie idm msg.timestamp
      let sc := sc.1.closeExpired env cookie sc.2
      if sc.2.writer = none then rotateCreates env sc.1 cookie sc.2 else []
  | _ => []

/-- saver/saver.go:432-482 `swapAndQueue`. -/
def swapCreates (env : Env) (s : Saver) (pm : ArchivalRecord) : List Creation :=
  let s := { s with stats := { s.stats with total := s.stats.total + 1 } }
  match s.cache.update pm with
  | (c, .ok none) => queueCreates env { s with cache := c, stats := { s.stats with new := s.stats.new + 1 } } pm
  | (c, .ok (some cached)) =>
    let old := env.view s.tick cached
    let s := { s with cache := c, tick := s.tick + 1 }
    match parseIDM pm.raw with
    | .ok pmIDM =>
      let s := s.recordClosing (cookieOf pmIDM) pm old
      match compareRecords pm (some old) with
      | .ok change =>
        if change ≠ .noMajorChange then queueCreates env { s with stats := { s.stats with diff := s.stats.diff + 1 } } pm else []
      | _ => []
    | _ => []
  | _ => []

/-- saver/saver.go:302-328 `handleType`. -/
def handleCreates (env : Env) (t : Int) : List (Option NetlinkMessage) → Saver → List Creation
  | [], _ => []
  | none :: msgs, s => handleCreates env t msgs s
  | some msg :: msgs, s =>
    match makeArchivalRecord msg env.exclude with
    | .ok (some ar) =>
      let ar := { ar with timestamp := t }
      match s.swapAndQueue env ar with
      | none => swapCreates env s ar
      | some s' => swapCreates env s ar ++ handleCreates env t msgs s'
    | .panic => []
    | _ => handleCreates env t msgs s

/-- saver/saver.go:338-428: the body of the loop, for one block. (`endConn` creates no files.) -/
def blockCreates (env : Env) (l : LoopState) (b : MessageBlock) : List Creation :=
  handleCreates env b.v4Time b.v4Messages l.svr ++
    match l.svr.handleType env b.v4Time b.v4Messages 0 0 with
    | none => []
    | some (s, _, _) => handleCreates env b.v6Time b.v6Messages s

/-- saver/saver.go:331-428: all blocks. -/
def blocksCreates (env : Env) : List MessageBlock → LoopState → List Creation
  | [], _ => []
  | b :: bs, l => blockCreates env l b ++ match l.block env b with
    | none => []
    | some l' => blocksCreates env bs l'

/-- saver/saver.go:331-430: the whole run of the saver. (`Close` creates no files.) -/
def creations (env : Env) (bs : List MessageBlock) : List Creation := blocksCreates env bs newLoop

end TcpInfo
