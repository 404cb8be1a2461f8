import Verif.Model.SocketFile
/-!
# C95: the server clients reach, from the history
-/

namespace TcpInfo.Spec
open SocketFile (Op)

/-- Server `i` is the one that was started last, it has not crashed, and no server has been closed since. -/
def Latest (os : List Op) (i : Nat) : Prop :=
  ∃ before since, os = before ++ .listen i :: since ∧ (∀ j, .listen j ∉ since) ∧ (∀ j, .close j ∉ since) ∧ .crash i ∉ since

end TcpInfo.Spec
