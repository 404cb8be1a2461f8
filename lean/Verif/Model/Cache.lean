import Verif.Model.Netlink
/-!
# Go maps, and package cache
-/

namespace TcpInfo

/-- A Go `map[uint64]α`. Iteration order is not part of the value (see `Env.order` in `Model.Saver`). -/
abbrev GoMap (α : Type) := List (UInt64 × α)

namespace GoMap
variable {α : Type}
/-- `v, ok := m[k]`. -/
def get (m : GoMap α) (k : UInt64) : Option α :=
  match m with
  | [] => none
  | (k', v) :: m => if k' = k then some v else get m k
/-- `delete(m, k)`. -/
def del (m : GoMap α) (k : UInt64) : GoMap α := m.filter (fun p => p.1 ≠ k)
/-- `m[k] = v`. -/
def set (m : GoMap α) (k : UInt64) (v : α) : GoMap α := (k, v) :: del m k
/-- The keys, in some order. -/
def keys (m : GoMap α) : List UInt64 := m.map (·.1)
end GoMap

/-- The connection cookie in a raw header: `idm.ID.Cookie()` after `Parse` (inetdiag/structs.go:196-199). -/
def cookieOf (m : InetDiagMsg) : UInt64 := m.id.cookieVal

/-- cache/cache.go:20-25 `Cache`. -/
structure Cache where
  current : GoMap ArchivalRecord
  previous : GoMap ArchivalRecord
  cycles : Int
  deriving DecidableEq, Inhabited

/-- cache/cache.go:29-32 `NewCache`. -/
def newCache : Cache := { current := [], previous := [], cycles := 0 }

/-- cache/cache.go:35-47 `Update`: new cache, evicted record (`none` = nil), error. -/
def Cache.update (c : Cache) (msg : ArchivalRecord) : Cache × Res GoErr (Option ArchivalRecord) :=
  match parseIDM msg.raw with
  | .err e => (c, .err e)
  | .panic => (c, .panic)
  | .ok idm =>
    let cookie := cookieOf idm
    ({ c with current := c.current.set cookie msg
              previous := match c.previous.get cookie with
                          | some _ => c.previous.del cookie
                          | none => c.previous },
     .ok (c.previous.get cookie))

/-- cache/cache.go:52-62 `EndCycle`: new cache and the residual map. -/
def Cache.endCycle (c : Cache) : Cache × GoMap ArchivalRecord :=
  ({ current := [], previous := c.current, cycles := c.cycles + 1 }, c.previous)

/-- cache/cache.go:65-68 `CycleCount`. -/
def Cache.cycleCount (c : Cache) : Int := c.cycles

end TcpInfo
