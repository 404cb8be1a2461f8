import Verif.Model.Saver
import Verif.Model.EventSocket
/-!
# How `main` connects the saver and the event server
-/

namespace TcpInfo

/-- The event a call of the saver puts into the server's channel: main.go:108-113 and 143 hand the server to the saver; saver/saver.go:271 and 291
call `FlowCreated` and `FlowDeleted` (eventsocket/server.go:169-186). -/
def eventOf (a : Stamped) : Option EventSocket.FlowEvent :=
  match a.act with
  | .flowCreated t u id => some (EventSocket.flowCreated t u id)
  | .flowDeleted t u => some (EventSocket.flowDeleted t u)
  | _ => none

/-- All events of a run of the saver, in order. -/
def saverEvents (tr : List Stamped) : List EventSocket.FlowEvent := tr.filterMap eventOf

end TcpInfo
