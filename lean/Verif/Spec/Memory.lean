import Verif.Spec.Wire
import Verif.Spec.Saver
import Verif.Model.Memory
/-!
# Specification: datagrams of netlink messages; histories of shared memory
-/

namespace TcpInfo.Spec
open TcpInfo

/-- A netlink message: what `struct nlmsghdr` says besides the length, and the payload. -/
structure NlMsg where
  type : UInt16
  flags : UInt16
  seq : UInt32
  pid : UInt32
  data : Bytes

/-- The bytes of a message: 32-bit length (header included), type, flags, sequence number, port id (linux/netlink.h `struct nlmsghdr`), payload, and
padding with arbitrary content. -/
def NlMsg.block (p : NlMsg) (pad : Bytes) : Bytes :=
  le 4 (p.data.length + 16) ++ le 2 p.type.toNat ++ le 2 p.flags.toNat ++ le 4 p.seq.toNat ++ le 4 p.pid.toNat ++ p.data ++ pad

/-- A datagram: messages one after the other. -/
def nlWire : List (NlMsg × Bytes) → Bytes
  | [] => []
  | (p, pad) :: rest => p.block pad ++ nlWire rest

/-- The length fits into 32 bits, the padding is the least one that reaches a multiple of four. -/
def GoodMsg (q : NlMsg × Bytes) : Prop := q.1.data.length + 16 < 2 ^ 32 ∧ q.2.length < 4 ∧ (q.1.data.length + q.2.length) % 4 = 0

/-- The message as its receiver sees it. -/
def NlMsg.header (p : NlMsg) : NlMsghdr :=
  { len := UInt32.ofNat (p.data.length + 16), type := p.type, flags := p.flags, seq := p.seq, pid := p.pid }

/-- A history of shared memory: at each moment something may happen. -/
structure MemoryRun (H : Nat → Heap) : Prop where
  start : ∃ m, H 0 = Heap.init m
  step : ∀ i, Heap.Step (H i) (H (i + 1)) ∨ H (i + 1) = H i

/-- What the saver sees of a record it has kept is what is in memory. The record was made, at some moment, from a message that had been received; what it
sees is what its header and its attributes contain at a later moment. -/
def ReadsMemory (H : Nat → Heap) (env : Env) : Prop :=
  ∀ n r, env.view n r = r ∨ ∃ i j msg p t, i ≤ j ∧ msg ∈ (H i).msgs ∧ pMakeArchivalRecord (H i).mem msg env.exclude = .ok (some p)
    ∧ r = p.load (H i).mem t ∧ env.view n r = p.load (H j).mem t

end TcpInfo.Spec
