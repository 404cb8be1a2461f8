import Verif.Model.EventSocket
/-!
# What the clients of the event socket expect
-/

namespace TcpInfo.EventSocket
open TcpInfo

/-- The events that have a JSON form. -/
def good (env : Env) (es : List FlowEvent) : List FlowEvent := es.filter (fun e => (env.marshal e).isSome)

/-- The text of a sequence of events: one line each. -/
def text (env : Env) : List FlowEvent → Bytes
  | [] => []
  | e :: es => ((env.marshal e).getD []) ++ [10] ++ text env es

/-- Reached by some schedule, when the saver emits `todo`. -/
def Reachable (env : Env) (todo : List FlowEvent) (s : State) : Prop := ∃ cs, (init todo).exec env cs = some s

/-- The write of the event being distributed is still to come for connection `c`. -/
def State.pending (s : State) (c : Nat) : Prop := ∃ b rem, s.npc = .send b rem ∧ c ∈ rem

end TcpInfo.EventSocket
