import Verif.Model.Netlink
import Verif.Model.Layout
/-!
# Package snapshot: decoding records
-/

namespace TcpInfo

/-- snapshot/snapshot.go:225-269 `Snapshot`. A pointer to a Go struct is `some` of the bytes of the struct in memory (read with `goField`). -/
structure Snapshot where
  timestamp : Int
  observed : UInt32 := 0
  notFullyParsed : UInt32 := 0
  inetDiagMsg : Option InetDiagMsg := none
  congestionAlgorithm : Bytes := []
  tos : UInt8 := 0
  tclass : UInt8 := 0
  classID : UInt8 := 0
  shutdown : UInt8 := 0
  protocol : UInt8 := 0
  mark : UInt32 := 0
  tcpInfo : Option Bytes := none
  memInfo : Option Bytes := none
  socketMem : Option Bytes := none
  vegasInfo : Option Bytes := none
  dctcpInfo : Option Bytes := none
  bbrInfo : Option Bytes := none
  deriving DecidableEq

/-- snapshot/snapshot.go:113-124 `maybeCopy`: the bytes of the struct at the returned pointer, and whether the size was not larger. -/
def maybeCopy (src : Bytes) (size : Nat) : Bytes × Bool :=
  if src.length < size then (src ++ List.replicate (size - src.length) 0, true)
  else (src.take size, src.length == size)

/-- snapshot/snapshot.go:157-160 `CongestionAlgorithm`: `raw[:len(raw)-1]` panics for an empty slice. -/
def congestionAlgorithm (raw : Bytes) : Option (Bytes × Bool) :=
  if raw.length = 0 then none else some (raw.take (raw.length - 1), true)

/-- snapshot/snapshot.go:162-167 `toUint8`. -/
def toUint8 (raw : Bytes) : UInt8 × Bool :=
  match raw with
  | [] => (0, false)
  | b :: _ => (b, true)

/-- snapshot/snapshot.go:209-214 `toMark`. -/
def toMark (raw : Bytes) : UInt32 × Bool :=
  if raw.length ≠ 4 then (0, false) else (UInt32.ofNat (leNat raw), true)

/-- Result of a converter put into its field: the new snapshot and `ok`. -/
def putStruct (raw : Bytes) (s : GoStruct) (set : Bytes → Snapshot) : Snapshot × Bool :=
  let r := maybeCopy raw (goSizeof s)
  (set r.1, r.2)

/-- snapshot/snapshot.go:47-91: the `switch`. Cases 11-14 (SKV6ONLY, LOCALS, PEERS, PAD), 18 (MD5SIG) and `default` only log and count. -/
def decodeSwitch (t : Nat) (raw : Bytes) (s : Snapshot) : Option (Snapshot × Bool) :=
  match t with
  | 1 => some (putStruct raw goMemInfo (fun m => { s with memInfo := some m }))
  | 2 => some (putStruct raw goTCPInfo (fun m => { s with tcpInfo := some m }))
  | 3 => some (putStruct raw goVegasInfo (fun m => { s with vegasInfo := some m }))
  | 4 => (congestionAlgorithm raw).map (fun r => ({ s with congestionAlgorithm := r.1 }, r.2))
  | 5 => some ({ s with tos := (toUint8 raw).1 }, (toUint8 raw).2)
  | 6 => some ({ s with tclass := (toUint8 raw).1 }, (toUint8 raw).2)
  | 7 => some (putStruct raw goSocketMemInfo (fun m => { s with socketMem := some m }))
  | 8 => some ({ s with shutdown := (toUint8 raw).1 }, (toUint8 raw).2)
  | 9 => some (putStruct raw goDCTCPInfo (fun m => { s with dctcpInfo := some m }))
  | 10 => some ({ s with protocol := (toUint8 raw).1 }, (toUint8 raw).2)
  | 15 => some ({ s with mark := (toMark raw).1 }, (toMark raw).2)
  | 16 => some (putStruct raw goBBRInfo (fun m => { s with bbrInfo := some m }))
  | 17 => some ({ s with classID := (toUint8 raw).1 }, (toUint8 raw).2)
  | _ => some (s, false)

/-- snapshot/snapshot.go:92 `uint32(1) << uint8(t-1)`: the count is taken modulo 256, and shifting a 32-bit value by 32 or more gives 0. -/
def attrBit (t : Nat) : UInt32 :=
  let n := (t + 255) % 256
  if n < 32 then UInt32.ofNat (2 ^ n) else 0

/-- snapshot/snapshot.go:41-96: the loop over the attributes, from index `t` on; `none` is a panic. -/
def decodeLoop : (t : Nat) → List (Option GoSlice) → Snapshot → Option Snapshot
  | _, [], s => some s
  | t, none :: as, s => decodeLoop (t + 1) as s
  | t, some raw :: as, s =>
    match decodeSwitch t raw.val s with
    | none => none
    | some (s, ok) =>
      decodeLoop (t + 1) as { s with
        observed := s.observed ||| attrBit t
        notFullyParsed := if ok then s.notFullyParsed else s.notFullyParsed ||| attrBit t }

/-- snapshot/snapshot.go:27-99 `Decode`. -/
def decode (ar : ArchivalRecord) : Res GoErr (Option Metadata × Snapshot) :=
  if ar.metadata = none ∧ ar.rawIDM = none then .err .emptyRecord
  else
    let parsed : Res GoErr (Option InetDiagMsg) := match ar.rawIDM with
      | none => .ok none
      | some raw => match parseIDM raw with
        | .ok m => .ok (some m)
        | .err e => .err e
        | .panic => .panic
    match parsed with
    | .err e => .err e
    | .panic => .panic
    | .ok idm =>
      match decodeLoop 0 ar.attrs { timestamp := ar.timestamp, inetDiagMsg := idm } with
      | none => .panic
      | some s => .ok (ar.metadata, s)

/-- An `ArchiveReader` (netlink/archival-record.go:328-331) as far as it is read: the records its `Next` returns, then how it ends. -/
structure RecordStream where
  records : List ArchivalRecord
  /-- `none`: `Next` panics -/
  fin : Option GoErr

/-- `time.Date(2009, time.May, 29, 23, 59, 59, 0, time.UTC)` in nanoseconds since the epoch (snapshot/snapshot.go:299). -/
def hackTime : Int := 1243641599000000000

/-- `time.Time{}`: 1 January of year 1, in nanoseconds since the epoch. -/
def goZeroTime : Int := -62135596800 * 1000000000

/-- snapshot/snapshot.go:290-303 `Reader.Next`, after the record has been read. `==` on times compares wall clock and location; a zero time
is always the zero value here. -/
def readerNext (ar : ArchivalRecord) : Res GoErr (Option Metadata × Snapshot) :=
  decode (if ar.timestamp = goZeroTime then { ar with timestamp := hackTime } else ar)

/-- snapshot/snapshot.go:307-329 `LoadAll`: the loop. -/
def loadAllLoop (fin : Option GoErr) : List ArchivalRecord → Option Metadata → List Snapshot → Res GoErr (Option Metadata × List Snapshot)
  | [], md, snaps =>
    match fin with
    | none => .panic
    | some .eof => .ok (md, snaps)
    | some e => .err e
  | r :: rs, md, snaps =>
    match readerNext r with
    | .panic => .panic
    | .err e => if e = .eof then .ok (md, snaps) else .err e
    | .ok (m, s) => loadAllLoop fin rs (if m = none then md else m) (snaps ++ [s])

/-- snapshot/snapshot.go:307-329 `LoadAll`. -/
def loadAll (src : RecordStream) : Res GoErr (Option Metadata × List Snapshot) := loadAllLoop src.fin src.records none []

end TcpInfo
