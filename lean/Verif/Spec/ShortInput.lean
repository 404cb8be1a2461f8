import Verif.Model.Saver
import Verif.Spec.Archive
/-!
# Specification for C62, C66 and C74: input of ordinary size
-/

namespace TcpInfo.Spec

/-- A time at least a day away from the ends of the years 0 to 9999. -/
def ModernTime (t : Int) : Prop := year0 + 86400 * 1000000000 ≤ t ∧ t < year10000 - 86400 * 1000000000

/-- Block times in the years 0 to 9999 (a day away from the ends), messages of at most 48000 bytes, fewer than 2^63 messages, UUIDs of at most 10000
characters. (inet_diag messages have less than 1000 bytes; a datagram read by the collector has at most 65536.) -/
structure ShortInput (env : Env) (bs : List MessageBlock) : Prop where
  times : ∀ b ∈ bs, ModernTime b.v4Time ∧ ModernTime b.v6Time
  sizes : ∀ b ∈ bs, ∀ m, some m ∈ b.v4Messages ++ b.v6Messages → m.data.length ≤ 48000
  count : (bs.map (fun b => b.v4Messages.length + b.v6Messages.length)).sum < 2 ^ 63
  uuids : ∀ k, (env.uuid k).length ≤ 10000

end TcpInfo.Spec
