import Verif.Model.Memory
import Verif.Model.Snapshot
/-!
# Where the structs of a snapshot are in memory

`Model.Snapshot` gives the structs that a snapshot points to as values. In the program they are not copied: the pointers of a snapshot lead into the slices of the record it was
decoded from, unless an attribute is shorter than its struct. Here the same functions give addresses, in the memory of `Model.Memory`.

Simplifications: memory is allocated at ever higher addresses and never reused (the garbage collector reuses only memory to which no pointer is left); metadata is a value (nothing
in /repo changes a `Metadata` after it was made).
-/

namespace TcpInfo

/-- Memory, and the first address that has not been allocated yet. -/
structure PHeap where
  mem : Mem
  brk : Nat

/-- `make([]byte, len(b))` filled with `b`: the memory afterwards; the new bytes are at the old `brk`. -/
def PHeap.alloc (h : PHeap) (b : Bytes) : PHeap := ⟨h.mem.store h.brk b, h.brk + b.length⟩

/-- netlink/archival-record.go:36-51 `ArchivalRecord`, with its slices. -/
structure PArchival where
  timestamp : Int
  raw : Option PSlice
  attributes : Option (List (Option PSlice))
  metadata : Option Metadata

/-- The record as a value, while memory is `m`. -/
def PArchival.load (m : Mem) (p : PArchival) : ArchivalRecord :=
  { timestamp := p.timestamp, rawIDM := p.raw.map (·.read m), attributes := p.attributes.map (·.map (·.map (·.load m))), metadata := p.metadata }

/-- snapshot/snapshot.go:225-269 `Snapshot`, with the addresses of the structs. A Go string is immutable, so it is a value. -/
structure PSnapshot where
  timestamp : Int
  observed : UInt32 := 0
  notFullyParsed : UInt32 := 0
  inetDiagMsg : Option Nat := none
  congestionAlgorithm : Bytes := []
  tos : UInt8 := 0
  tclass : UInt8 := 0
  classID : UInt8 := 0
  shutdown : UInt8 := 0
  protocol : UInt8 := 0
  mark : UInt32 := 0
  tcpInfo : Option Nat := none
  memInfo : Option Nat := none
  socketMem : Option Nat := none
  vegasInfo : Option Nat := none
  dctcpInfo : Option Nat := none
  bbrInfo : Option Nat := none
  deriving DecidableEq

/-- The struct of type `InetDiagMsg` (72 bytes) at an address. -/
def idmAt (m : Mem) (a : Nat) : Option InetDiagMsg :=
  match parseIDM (m.bytes a 72) with
  | .ok v => some v
  | _ => none

/-- What somebody who follows the pointers of the snapshot sees, while memory is `m`. -/
def PSnapshot.load (m : Mem) (p : PSnapshot) : Snapshot :=
  { timestamp := p.timestamp, observed := p.observed, notFullyParsed := p.notFullyParsed, inetDiagMsg := p.inetDiagMsg.bind (idmAt m)
    congestionAlgorithm := p.congestionAlgorithm, tos := p.tos, tclass := p.tclass, classID := p.classID, shutdown := p.shutdown, protocol := p.protocol, mark := p.mark
    tcpInfo := p.tcpInfo.map (fun a => m.bytes a (goSizeof goTCPInfo)), memInfo := p.memInfo.map (fun a => m.bytes a (goSizeof goMemInfo))
    socketMem := p.socketMem.map (fun a => m.bytes a (goSizeof goSocketMemInfo)), vegasInfo := p.vegasInfo.map (fun a => m.bytes a (goSizeof goVegasInfo))
    dctcpInfo := p.dctcpInfo.map (fun a => m.bytes a (goSizeof goDCTCPInfo)), bbrInfo := p.bbrInfo.map (fun a => m.bytes a (goSizeof goBBRInfo)) }

/-- The pointer that is made from the attributes of a type (snapshot/snapshot.go:49-84). -/
def PSnapshot.ptr (s : PSnapshot) : Nat → Option Nat
  | 1 => s.memInfo
  | 2 => s.tcpInfo
  | 3 => s.vegasInfo
  | 7 => s.socketMem
  | 9 => s.dctcpInfo
  | 16 => s.bbrInfo
  | _ => none

/-- The size of the struct that it points to; 0 for attributes of which no struct is made (snapshot/snapshot.go:49-84). -/
def structSize : Nat → Nat
  | 1 => goSizeof goMemInfo
  | 2 => goSizeof goTCPInfo
  | 3 => goSizeof goVegasInfo
  | 7 => goSizeof goSocketMemInfo
  | 9 => goSizeof goDCTCPInfo
  | 16 => goSizeof goBBRInfo
  | _ => 0

/-- snapshot/snapshot.go:113-124 `maybeCopy`: a pointer to the bytes themselves, or to a copy of the right size. -/
def pMaybeCopy (h : PHeap) (src : PSlice) (size : Nat) : PHeap × Nat × Bool :=
  if src.len < size then (h.alloc (src.read h.mem ++ List.replicate (size - src.len) 0), h.brk, true)
  else (h, src.base, src.len == size)

/-- snapshot/snapshot.go:127-153, 186-190, 198-202, 218-222 `toMemInfo`, `toLinuxTCPInfo`, `toVegasInfo`, `toSockMemInfo`, `toDCTCPInfo`, `toBBRInfo`, see `putStruct`. -/
def pPutStruct (h : PHeap) (raw : PSlice) (g : GoStruct) (set : Nat → PSnapshot) : PHeap × PSnapshot × Bool :=
  let r := pMaybeCopy h raw (goSizeof g)
  (r.1, set r.2.1, r.2.2)

/-- snapshot/snapshot.go:47-91, see `decodeSwitch`; 170-182, 192-194, 204-207 `toTOS`, `toTCLASS`, `toClassID`, `toShutdown`, `toProtocol` are `toUint8`. -/
def pDecodeSwitch (t : Nat) (raw : PSlice) (h : PHeap) (s : PSnapshot) : Option (PHeap × PSnapshot × Bool) :=
  match t with
  | 1 => some (pPutStruct h raw goMemInfo (fun a => { s with memInfo := some a }))
  | 2 => some (pPutStruct h raw goTCPInfo (fun a => { s with tcpInfo := some a }))
  | 3 => some (pPutStruct h raw goVegasInfo (fun a => { s with vegasInfo := some a }))
  | 4 => (congestionAlgorithm (raw.read h.mem)).map (fun r => (h, { s with congestionAlgorithm := r.1 }, r.2))
  | 5 => some (h, { s with tos := (toUint8 (raw.read h.mem)).1 }, (toUint8 (raw.read h.mem)).2)
  | 6 => some (h, { s with tclass := (toUint8 (raw.read h.mem)).1 }, (toUint8 (raw.read h.mem)).2)
  | 7 => some (pPutStruct h raw goSocketMemInfo (fun a => { s with socketMem := some a }))
  | 8 => some (h, { s with shutdown := (toUint8 (raw.read h.mem)).1 }, (toUint8 (raw.read h.mem)).2)
  | 9 => some (pPutStruct h raw goDCTCPInfo (fun a => { s with dctcpInfo := some a }))
  | 10 => some (h, { s with protocol := (toUint8 (raw.read h.mem)).1 }, (toUint8 (raw.read h.mem)).2)
  | 15 => some (h, { s with mark := (toMark (raw.read h.mem)).1 }, (toMark (raw.read h.mem)).2)
  | 16 => some (pPutStruct h raw goBBRInfo (fun a => { s with bbrInfo := some a }))
  | 17 => some (h, { s with classID := (toUint8 (raw.read h.mem)).1 }, (toUint8 (raw.read h.mem)).2)
  | _ => some (h, s, false)

/-- snapshot/snapshot.go:41-96, see `decodeLoop`. -/
def pDecodeLoop : (t : Nat) → List (Option PSlice) → PHeap → PSnapshot → Option (PHeap × PSnapshot)
  | _, [], h, s => some (h, s)
  | t, none :: as, h, s => pDecodeLoop (t + 1) as h s
  | t, some raw :: as, h, s =>
    match pDecodeSwitch t raw h s with
    | none => none
    | some (h, s, ok) =>
      pDecodeLoop (t + 1) as h { s with
        observed := s.observed ||| attrBit t
        notFullyParsed := if ok then s.notFullyParsed else s.notFullyParsed ||| attrBit t }

/-- inetdiag/structs.go:290-298 `RawInetDiagMsg.Parse`: the address of the struct is that of the bytes. -/
def pParseIDM (m : Mem) (raw : PSlice) : Res GoErr Nat :=
  match parseIDM (raw.read m) with
  | .ok _ => .ok raw.base
  | .err e => .err e
  | .panic => .panic

/-- snapshot/snapshot.go:27-99 `Decode`, see `decode`. -/
def pDecode (h : PHeap) (ar : PArchival) : Res GoErr (PHeap × Option Metadata × PSnapshot) :=
  if ar.metadata.isNone ∧ ar.raw.isNone then .err .emptyRecord
  else
    let parsed : Res GoErr (Option Nat) := match ar.raw with
      | none => .ok none
      | some raw => match pParseIDM h.mem raw with
        | .ok a => .ok (some a)
        | .err e => .err e
        | .panic => .panic
    match parsed with
    | .err e => .err e
    | .panic => .panic
    | .ok idm =>
      match pDecodeLoop 0 (ar.attributes.getD []) h { timestamp := ar.timestamp, inetDiagMsg := idm } with
      | none => .panic
      | some (h, s) => .ok (h, ar.metadata, s)

/-- `encoding/json` makes a new byte slice for each base64 text (its capacity may be larger than its length). -/
def pNewSlice (h : PHeap) (g : GoSlice) : PHeap × PSlice :=
  (h.alloc (g.val ++ g.spare), ⟨h.brk, g.val.length, g.val.length + g.spare.length⟩)

/-- The elements of `Attributes`, one after the other. -/
def pNewSlices (h : PHeap) : List (Option GoSlice) → PHeap × List (Option PSlice)
  | [] => (h, [])
  | none :: l => let r := pNewSlices h l; (r.1, none :: r.2)
  | some g :: l =>
    let a := pNewSlice h g
    let r := pNewSlices a.1 l
    (r.1, some a.2 :: r.2)

/-- netlink/archival-record.go:362-374 `archiveReader.Next`: the record that was read, in new memory. (The scanner's buffer is not referred to.) -/
def pNewRecord (h : PHeap) (r : ArchivalRecord) : PHeap × PArchival :=
  let a := match r.rawIDM with
    | none => (h, none)
    | some b => let x := pNewSlice h ⟨b, []⟩; (x.1, some x.2)
  let l := match r.attributes with
    | none => (a.1, none)
    | some l => let x := pNewSlices a.1 l; (x.1, some x.2)
  (l.1, { timestamp := r.timestamp, raw := a.2, attributes := l.2, metadata := r.metadata })

/-- snapshot/snapshot.go:282-303 `NewReader`, `Reader.Next`, see `readerNext`. -/
def pReaderNext (h : PHeap) (r : ArchivalRecord) : Res GoErr (PHeap × Option Metadata × PSnapshot) :=
  let x := pNewRecord h r
  pDecode x.1 (if r.timestamp = goZeroTime then { x.2 with timestamp := hackTime } else x.2)

/-- snapshot/snapshot.go:307-329 `LoadAll`, see `loadAllLoop`: memory afterwards, and pointers. -/
def pLoadAllLoop (fin : Option GoErr) : List ArchivalRecord → PHeap → Option Metadata → List PSnapshot → Res GoErr (PHeap × Option Metadata × List PSnapshot)
  | [], h, md, snaps =>
    match fin with
    | none => .panic
    | some .eof => .ok (h, md, snaps)
    | some e => .err e
  | r :: rs, h, md, snaps =>
    match pReaderNext h r with
    | .panic => .panic
    | .err e => if e = .eof then .ok (h, md, snaps) else .err e
    | .ok (h, m, s) => pLoadAllLoop fin rs h (if m = none then md else m) (snaps ++ [s])

end TcpInfo
