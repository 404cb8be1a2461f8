import Verif.Model.Memory
/-!
# Which bytes of shared memory the saver and the marshallers read

`Model.Memory` says where records lie, and which bytes a marshaller stores. Here the functions that read records are written as programs whose only access
to memory is to read single bytes, so that the bytes they read can be named. Lengths, capacities and the attribute table are not in shared memory (they
are made once, before the record is handed over, and never changed).
-/

namespace TcpInfo

/-- A program that reads memory. -/
inductive RProg (α : Type) where
  | ret (x : α)
  | read (a : Nat) (k : UInt8 → RProg α)

/-- One after the other. -/
def RProg.bind {α β : Type} : RProg α → (α → RProg β) → RProg β
  | .ret x, f => f x
  | .read a k, f => .read a (fun v => (k v).bind f)

/-- The result, if memory is `m` meanwhile. -/
def RProg.run {α : Type} (m : Mem) : RProg α → α
  | .ret x => x
  | .read a k => (k (m a)).run m

/-- The addresses read. -/
def RProg.reads {α : Type} (m : Mem) : RProg α → List Nat
  | .ret _ => []
  | .read a k => a :: (k (m a)).reads m

/-- `n` bytes starting at address `a`. -/
def readBytes : (a n : Nat) → RProg Bytes
  | _, 0 => .ret []
  | a, n + 1 => .read a (fun v => (readBytes (a + 1) n).bind (fun l => .ret (v :: l)))

/-- All bytes of a slice. -/
def readSlice (s : PSlice) : RProg Bytes := readBytes s.base s.len

/-- Go slice expression `s[lo:hi]`, see `GoSlice.slice?`; `none` = panic. It may reach beyond the length. -/
def PSlice.part? (s : PSlice) (lo hi : Nat) : Option (RProg Bytes) :=
  if lo ≤ hi ∧ hi ≤ s.cap then some (readBytes (s.base + lo) (hi - lo)) else none

/-- netlink/archival-record.go:270-298, see `compareAttrsLoop`. Simplification (here and below): `bytes.Compare` reads both slices to their ends. -/
def rCompareAttrs : (tp : Nat) → (prev cur : List (Option PSlice)) → RProg ChangeType
  | _, [], _ => .ret .noMajorChange
  | _, _ :: _, [] => .ret .lostAttribute
  | tp, a :: as, b :: bs =>
    if tp = INET_DIAG_INFO then rCompareAttrs (tp + 1) as bs
    else match a, b with
      | none, some _ => .ret .newAttribute
      | some _, none => .ret .lostAttribute
      | none, none => rCompareAttrs (tp + 1) as bs
      | some x, some y =>
        if x.len ≠ y.len then .ret .attributeLength
        else (readSlice x).bind (fun u => (readSlice y).bind (fun v => if u ≠ v then .ret .other else rCompareAttrs (tp + 1) as bs))

/-- netlink/archival-record.go:220-301 `pm.Compare(previous)`, `previous` not nil, see `compareRecords`. `Parse` (inetdiag/structs.go:290-299) reads
nothing, it casts a pointer; of the header only `IDiagState` (offset 1) is read. -/
def rCompare (pm previous : PRecord) : RProg (Res GoErr ChangeType) :=
  if previous.raw.len < 72 then .ret (.err .parseFailed)
  else if pm.raw.len < 72 then .ret (.err .parseFailed)
  else .read (previous.raw.base + 1) (fun s => .read (pm.raw.base + 1) (fun s' =>
    if s ≠ s' then .ret (.ok .iDiagStateChange)
    else if previous.attrs.length ≤ INET_DIAG_INFO ∨ pm.attrs.length ≤ INET_DIAG_INFO then .ret (.ok .noTCPInfo)
    else match previous.attrs[INET_DIAG_INFO]?, pm.attrs[INET_DIAG_INFO]? with
      | none, _ => .ret .panic
      | _, none => .ret .panic
      | some (some a), some (some b) =>
        match a.part? pmtuOffset busytimeOffset, b.part? pmtuOffset busytimeOffset with
        | some ra, some rb => ra.bind (fun a1 => rb.bind (fun b1 =>
          if a1 ≠ b1 then .ret (.ok .stateOrCounterChange)
          else match a.part? 0 lastDataSentOffset, b.part? 0 lastDataSentOffset with
            | some ra, some rb => ra.bind (fun a2 => rb.bind (fun b2 =>
              if a2 ≠ b2 then .ret (.ok .stateOrCounterChange)
              else if previous.attrs.length < pm.attrs.length then .ret (.ok .newAttribute)
              else if previous.attrs.length > pm.attrs.length then .ret (.ok .lostAttribute)
              else (rCompareAttrs 0 previous.attrs pm.attrs).bind (fun c => .ret (.ok c))))
            | _, _ => .ret .panic))
        | _, _ => .ret .panic
      | _, _ => .ret (.ok .noTCPInfo)))

/-- A 64-bit load, see `load64`. -/
def rLoad64 (off : Nat) (s : PSlice) : Option (RProg UInt64) :=
  if off + 8 ≤ s.len then some ((readBytes (s.base + off) 8).bind (fun b => .ret (UInt64.ofNat (leNat b)))) else none

/-- netlink/archival-record.go:403-416 `GetStats`, see `getStatsGo`. -/
def rGetStats (p : PRecord) : RProg (Option (UInt64 × UInt64)) :=
  if p.attrs.length ≤ INET_DIAG_INFO then .ret (some (0, 0))
  else match p.attrs[INET_DIAG_INFO]? with
    | none => .ret none
    | some none => .ret (some (0, 0)) -- nil has length 0
    | some (some raw) =>
      if raw.len < bytesSentOffset + 8 ∨ raw.len < bytesReceivedOffset + 8 then .ret (some (0, 0))
      else match rLoad64 bytesSentOffset raw, rLoad64 bytesReceivedOffset raw with
        | some rs, some rr => rs.bind (fun s => rr.bind (fun r => .ret (some (s, r))))
        | _, _ => .ret none

/-- saver/saver.go:374-380: what the log line about an ended connection reads of its last record: `idm.IDiagState`. `none`: the header does not parse. -/
def rState (p : PRecord) : RProg (Option UInt8) :=
  if p.raw.len < 72 then .ret none else .read (p.raw.base + 1) (fun s => .ret (some s))

/-- netlink/archival-record.go:98-110 `ParseRouteAttr`, see `pParseRouteAttrLoop`; netlink/netlink_linux.go:42-48 reads the four bytes of the attribute's
header. -/
def rParseRouteAttrLoop : (fuel : Nat) → (b : PSlice) → (acc : List PAttr) → RProg (Fueled (Res GoErr (List PAttr)))
  | 0, _, _ => .ret none
  | fuel + 1, b, acc =>
    if b.len < 4 then .ret (some (.ok acc))
    else (readBytes b.base 4).bind (fun h =>
      let len := (u16At 0 h).toNat
      if len < 4 ∨ len > b.len then .ret (some (.err .einval))
      else if rtaAlignOf len > b.len then .ret (some .panic)
      else rParseRouteAttrLoop fuel (b.after (rtaAlignOf len)) (acc ++ [⟨u16At 2 h, (b.after 4).upto (len - 4)⟩]))

/-- netlink/archival-record.go:143-172, see `pMakeRecord`. -/
def rMakeRecord (raw attrs : PSlice) : RProg (Res GoErr (Option PRecord)) :=
  (rParseRouteAttrLoop (attrs.len / 4 + 1) attrs []).bind (fun r =>
    match r with
    | none => .ret .panic
    | some .panic => .ret .panic
    | some (.err e) => .ret (.err e)
    | some (.ok as) =>
      let t := pMaxAttrType as 0
      let t := if t > 2 * INET_DIAG_MAX then 2 * INET_DIAG_MAX else t
      .ret (.ok (some ⟨raw, pFillAttrs as t (List.replicate (t + 1) none)⟩)))

/-- netlink/archival-record.go:116-173 `MakeArchivalRecord`, see `pMakeArchivalRecord`. Simplification: the test for exclusion reads the whole header. -/
def rMakeArchivalRecord (msg : PMessage) (exclude : Option ExcludeConfig) : RProg (Res GoErr (Option PRecord)) :=
  if msg.header.type ≠ 20 then .ret (.err .notType20)
  else if msg.data.len < 72 then .ret (.err .parseFailed)
  else
    let raw := msg.data.upto 72
    let attrs := msg.data.after 72
    match exclude with
    | none => rMakeRecord raw attrs
    | some ex => (readSlice raw).bind (fun b =>
      match parseIDM b with
      | .err e => .ret (.err e)
      | .panic => .ret .panic
      | .ok idm => if ex.excludes idm then .ret (.ok none) else rMakeRecord raw attrs)

/-- saver/saver.go:249-271, cache/cache.go:38-43: what `Update` and `queue` read of a new record's header: cookie, state, inode, user and addresses.
Simplification: the whole header. -/
def rHeader (p : PRecord) : RProg (Res GoErr InetDiagMsg) := (readSlice p.raw).bind (fun b => .ret (parseIDM b))

/-- inetdiag/structs.go:308-329 `Anonymize`: the address family, then the addresses (the anonymizer works on them); the result are the stores. Simplification:
both addresses are read before the first store; they have no byte in common. -/
def rAnonymize (anon : Anonymizer) (raw : PSlice) : RProg (List (Nat × UInt8)) :=
  if raw.len < 72 then .ret []
  else .read raw.base (fun family =>
    if family = AF_INET6 then (readBytes (raw.base + 8) 16).bind (fun x => (readBytes (raw.base + 24) 16).bind (fun y =>
      .ret (storesAt (raw.base + 8) (anon.f x) ++ storesAt (raw.base + 24) (anon.f y))))
    else if family = AF_INET then (readBytes (raw.base + 8) 4).bind (fun x => (readBytes (raw.base + 24) 4).bind (fun y =>
      .ret (storesAt (raw.base + 8) (anon.f x) ++ storesAt (raw.base + 24) (anon.f y))))
    else .ret [])

/-- The attributes, nil or not, in order. -/
def rAttrs : List (Option PSlice) → RProg (List (Option Bytes))
  | [] => .ret []
  | none :: as => (rAttrs as).bind (fun l => .ret (none :: l))
  | some s :: as => (readSlice s).bind (fun b => (rAttrs as).bind (fun l => .ret (some b :: l)))

/-- saver/saver.go:79 `json.Marshal(task.Message)`: what it reads of the record: header and attributes. -/
def rMarshal (p : PRecord) : RProg (Bytes × List (Option Bytes)) :=
  (readSlice p.raw).bind (fun b => (rAttrs p.attrs).bind (fun l => .ret (b, l)))

end TcpInfo
