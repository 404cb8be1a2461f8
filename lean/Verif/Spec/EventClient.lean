import Verif.Model.EventClient
/-!
# Specification: what a handler of events is told
-/

namespace TcpInfo.EventSocket
open TcpInfo

/-- The call an event stands for: number 0 is a connection opened, 1 a connection closed, all others mean nothing. -/
def expected (e : FlowEvent) : Option Callback :=
  match e.event with
  | 0 => some (.opened e.timestamp e.uuid e.id)
  | 1 => some (.closed e.timestamp e.uuid)
  | _ => none

end TcpInfo.EventSocket
