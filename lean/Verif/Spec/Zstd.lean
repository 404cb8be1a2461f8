import Verif.Model.Zstd
/-!
# What a user of a zstd writer expects
-/

namespace TcpInfo.Zstd
open TcpInfo

/-- The data passed to `Write` before the first `Close`, in order. -/
def beforeClose : List Op → Bytes
  | [] => []
  | .write b :: ops => b ++ beforeClose ops
  | .close :: _ => []

/-- The state is reached by some schedule after a successful `NewWriter` whose user calls `ops`. -/
def Reachable (cap : Nat) (ops : List Op) (s : ZState) : Prop := ∃ s0 cs, newWriter true true ops = .ok s0 ∧ s0.exec cap cs = some s

/-- The user has made all calls and they have returned. -/
def ZState.userDone (s : ZState) : Prop := s.ops = [] ∧ s.pc = .out

end TcpInfo.Zstd
