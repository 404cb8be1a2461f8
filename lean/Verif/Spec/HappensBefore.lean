import Verif.Model.Accesses
/-!
# The happens-before relation of the Go memory model (https://go.dev/ref/mem)
-/

namespace TcpInfo.Spec
open TcpInfo

/-- How many operations `o` are before position `i` of the log. -/
def earlier (L : Log) (o : Op) (i : Nat) : Nat := ((L.take i).filter (fun e => e.2 = o)).length

/-- `HB L i j`: operation `i` of the log happens before operation `j`, that is what goroutine of `j` does from then on sees the effects of `i`, and `i` sees
no effect of `j`. Two accesses to the same thing, one of them a write, that are not ordered are a data race.

* The operations of one goroutine are in its order.
* The n-th send on a channel is before the completion of the n-th receive.
* The n-th receive from a channel of capacity C is before the completion of the (n+C)-th send.
* Closing a channel is before a receive that returns because the channel is closed.
* A call of `Done` is before the return of the `Wait` that it unblocks. -/
inductive HB (L : Log) : Nat → Nat → Prop where
  | order {i j g o o'} : i < j → L[i]? = some (g, o) → L[j]? = some (g, o') → HB L i j
  | sent {i j g g' c} : L[i]? = some (g, .send c) → L[j]? = some (g', .recv c) → earlier L (.send c) i = earlier L (.recv c) j → HB L i j
  | room {i j g g' c} : L[i]? = some (g, .recv c) → L[j]? = some (g', .send c) → earlier L (.recv c) i + c.capacity = earlier L (.send c) j → HB L i j
  | closed {i j g g' c} : L[i]? = some (g, .close c) → L[j]? = some (g', .ended c) → HB L i j
  | done {i j g g'} : L[i]? = some (g, .done) → L[j]? = some (g', .wait) → HB L i j
  | trans {i j k} : HB L i j → HB L j k → HB L i k

end TcpInfo.Spec
