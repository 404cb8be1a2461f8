import Verif.Model.Layout
/-!
# Package netlink: attributes, records, exclusion, comparison
-/

namespace TcpInfo

/-- `syscall.NetlinkRouteAttr`: type and value (the length field is implied by the value).
`spare` of the value: the rest of the backing buffer, reachable by re-slicing. -/
structure RouteAttr where
  type : UInt16
  value : GoSlice
  deriving Repr, DecidableEq, Inhabited

/-- netlink/netlink_linux.go:42-48 `netlinkRouteAttrAndValue` (netlink/netlink_darwin.go:65-71 is the same); called with `len(b) ≥ 4` only.
Returns header length field, type, `b[4:]` and the aligned length. -/
def netlinkRouteAttrAndValue (b : Bytes) : Res GoErr (Nat × UInt16 × Bytes × Nat) :=
  let alen := (u16At 0 b).toNat
  if alen < 4 ∨ alen > b.length then .err .einval
  else .ok (alen, u16At 2 b, b.drop 4, rtaAlignOf alen)

/-- Outcome of a loop run with a step budget; `none` means the budget did not suffice. -/
abbrev Fueled (α : Type) := Option α

/-- netlink/archival-record.go:98-110 `ParseRouteAttr` loop; `tail` is the part of the backing array after `b`
(it only shows up as spare capacity). `fuel` bounds the number of iterations; `none` = not finished. -/
def parseRouteAttrLoop : (fuel : Nat) → (b tail : Bytes) → (acc : List RouteAttr) →
    Fueled (Res GoErr (List RouteAttr))
  | 0, _, _, _ => none
  | fuel + 1, b, tail, acc =>
    if b.length < 4 then some (.ok acc)
    else match netlinkRouteAttrAndValue b with
      | .err e => some (.err e)
      | .panic => some .panic
      | .ok (len, typ, vbuf, alen) =>
        -- vbuf[:int(a.Len)-SizeofRtAttr]
        let ra : RouteAttr := { type := typ,
                                value := { val := vbuf.take (len - 4), spare := vbuf.drop (len - 4) ++ tail } }
        -- b = b[alen:] panics when alen > len(b)
        if alen > b.length then some .panic
        else parseRouteAttrLoop fuel (b.drop alen) tail (acc ++ [ra])

/-- netlink/archival-record.go:98-110 `ParseRouteAttr`. One iteration per 4 bytes is always enough (C08). -/
def parseRouteAttr (b tail : Bytes) : Fueled (Res GoErr (List RouteAttr)) :=
  parseRouteAttrLoop (b.length / 4 + 1) b tail []

/-- netlink/archival-record.go:29-33 `Metadata`. `StartTime` in nanoseconds since the Unix epoch. -/
structure Metadata where
  uuid : String
  sequence : Int
  startTime : Int
  deriving Repr, DecidableEq, Inhabited

/-- netlink/archival-record.go:36-50 `ArchivalRecord`. `none` = Go `nil`. An attribute table entry is `none` for a nil slice. -/
structure ArchivalRecord where
  timestamp : Int
  rawIDM : Option Bytes
  attributes : Option (List (Option GoSlice))
  metadata : Option Metadata
  deriving Repr, DecidableEq, Inhabited

/-- `len(record.RawIDM)` view: nil has length 0. -/
def ArchivalRecord.raw (r : ArchivalRecord) : Bytes := r.rawIDM.getD []
/-- `record.Attributes` as a list: nil has length 0. -/
def ArchivalRecord.attrs (r : ArchivalRecord) : List (Option GoSlice) := r.attributes.getD []

/-- netlink/archival-record.go:53-59 `ExcludeConfig`; `none` = nil map. Maps with only `true` values are sets (lists). -/
structure ExcludeConfig where
  localConns : Bool
  srcPorts : Option (List UInt16)
  dstIPs : Option (List Bytes)
  deriving Repr, DecidableEq, Inhabited

/-- netlink/archival-record.go:201-203 `isLocal`. -/
def isLocal (ip : Bytes) : Bool := isLoopback ip || isLinkLocalUnicast ip || isMulticast ip || isUnspecified ip

/-- `syscall.NlMsghdr`. -/
structure NlMsghdr where
  len : UInt32
  type : UInt16
  flags : UInt16
  seq : UInt32
  pid : UInt32
  deriving Repr, DecidableEq, Inhabited

/-- `syscall.NetlinkMessage`; `spare` = rest of the receive buffer behind `Data` (its capacity). -/
structure NetlinkMessage where
  header : NlMsghdr
  data : Bytes
  spare : Bytes := []
  deriving Repr, DecidableEq, Inhabited

/-- `exclude.SrcPorts != nil && exclude.SrcPorts[p]` (netlink/archival-record.go:129). -/
def ExcludeConfig.hasSrcPort (ex : ExcludeConfig) (p : UInt16) : Bool :=
  match ex.srcPorts with | none => false | some l => l.contains p
/-- `exclude.DstIPs != nil && exclude.DstIPs[k]` (netlink/archival-record.go:135). -/
def ExcludeConfig.hasDstIP (ex : ExcludeConfig) (k : Bytes) : Bool :=
  match ex.dstIPs with | none => false | some l => l.contains k

/-- netlink/archival-record.go:124-141: the exclusion tests on a parsed header. -/
def ExcludeConfig.excludes (ex : ExcludeConfig) (idm : InetDiagMsg) : Bool :=
  if ex.hasSrcPort idm.id.sPort then true
  else if ex.localConns && (isLocal idm.id.srcIP || isLocal idm.id.dstIP) then true
  else if ex.hasDstIP idm.id.dst then true
  else false

/-- netlink/archival-record.go:149-155: the largest attribute type. -/
def maxAttrTypeLoop (attrs : List RouteAttr) (m : Nat) : Nat :=
  match attrs with
  | [] => m
  | a :: as => maxAttrTypeLoop as (if a.type.toNat > m then a.type.toNat else m)

/-- netlink/archival-record.go:160-171: filling the table. Logging omitted. -/
def fillAttrs (attrs : List RouteAttr) (maxT : Nat) (tbl : List (Option GoSlice)) : List (Option GoSlice) :=
  match attrs with
  | [] => tbl
  | a :: as =>
    if a.type.toNat > maxT then fillAttrs as maxT tbl
    else fillAttrs as maxT (tbl.set a.type.toNat (some a.value))

/-- netlink/archival-record.go:143-172: the part of `MakeArchivalRecord` after the exclusion tests. -/
def makeRecord (raw attrBytes spare : Bytes) : Res GoErr (Option ArchivalRecord) :=
  match parseRouteAttr attrBytes spare with
  | none => .panic -- iteration budget; never happens (C08_terminates)
  | some .panic => .panic
  | some (.err e) => .err e
  | some (.ok attrs) =>
    let m := maxAttrTypeLoop attrs 0
    let m := if m > 2 * INET_DIAG_MAX then 2 * INET_DIAG_MAX else m
    .ok (some { timestamp := 0, rawIDM := some raw,
                attributes := some (fillAttrs attrs m (List.replicate (m + 1) none)), metadata := none })

/-- netlink/archival-record.go:116-173 `MakeArchivalRecord`. `.ok none` is the `nil, nil` return. -/
def makeArchivalRecord (msg : NetlinkMessage) (exclude : Option ExcludeConfig) :
    Res GoErr (Option ArchivalRecord) :=
  if msg.header.type ≠ 20 then .err .notType20
  else match splitInetDiagMsg msg.data with
    | none => .err .parseFailed
    | some (raw, attrBytes) =>
      match exclude with
      | none => makeRecord raw attrBytes msg.spare
      | some ex =>
        match parseIDM raw with
        | .err e => .err e
        | .panic => .panic
        | .ok idm => if ex.excludes idm then .ok none else makeRecord raw attrBytes msg.spare

/-! ## Configuration of the exclusion -/

/-- Value of a decimal digit character. -/
def digitVal (c : Char) : Option Nat := if c.isDigit then some (c.toNat - '0'.toNat) else none

/-- Decimal digits to a number; `none` if empty or a non-digit occurs. Go's `ParseUint` stops at overflow of 64 bits with a
range error, which the 16-bit range test below reports in the same way (an error). -/
def parseDigits : List Char → Nat → Option Nat
  | [], acc => some acc
  | c :: cs, acc => (digitVal c).bind (fun d => parseDigits cs (acc * 10 + d))

/-- `strconv.ParseInt(s, 10, 16)`: optional sign, at least one digit, only digits (base 10 given explicitly, so underscores
are not allowed), value in [-2^15, 2^15-1]. `none` = any error. -/
def parseInt16 (s : List Char) : Option Int :=
  let (neg, ds) := match s with
    | '+' :: t => (false, t)
    | '-' :: t => (true, t)
    | t => (false, t)
  if ds.isEmpty then none
  else match parseDigits ds 0 with
    | none => none
    | some n =>
      if neg then (if n > 32768 then none else some (-(n : Int)))
      else (if n ≥ 32768 then none else some (n : Int))

/-- netlink/archival-record.go:62-72 `AddSrcPort`; `uint16(i)` wraps. Returns the error and the updated config. -/
def addSrcPort (ex : ExcludeConfig) (port : List Char) : Option GoErr × ExcludeConfig :=
  match parseInt16 port with
  | none => (some .strconv, ex)
  | some i => (none, { ex with srcPorts := some (UInt16.ofInt i :: ex.srcPorts.getD []) })

/-- netlink/archival-record.go:75-94 `AddDstIP`: `ip[12:]` is copied to the front of a zero key for IPv4. -/
def addDstIP (ex : ExcludeConfig) (dst : List Char) : Option GoErr × ExcludeConfig :=
  match parseIP dst with
  | none => (some .invalidIP, ex)
  | some ip =>
    let key := match to4 ip with
      | some _ => (ip.drop 12 ++ List.replicate 16 0).take 16
      | none => (ip ++ List.replicate 16 0).take 16
    (none, { ex with dstIPs := some (key :: ex.dstIPs.getD []) })

/-! ## Compare -/

/-- netlink/archival-record.go:179-190 `ChangeType`. -/
inductive ChangeType where
  | noMajorChange | iDiagStateChange | noTCPInfo | newAttribute | lostAttribute | attributeLength
  | stateOrCounterChange | packetCountChange | previousWasNil | other
  deriving Repr, DecidableEq, Inhabited

/-- netlink/archival-record.go:193-199: `unsafe.Offsetof` of `LinuxTCPInfo` fields. -/
def offsetTCP (name : String) : Nat := ((goOffsetof goTCPInfo name).getD (0, 0)).1
def lastDataSentOffset : Nat := offsetTCP "LastDataSent"
def pmtuOffset : Nat := offsetTCP "PMTU"
def busytimeOffset : Nat := offsetTCP "BusyTime"
def bytesReceivedOffset : Nat := offsetTCP "BytesReceived"
def bytesSentOffset : Nat := offsetTCP "BytesSent"

/-- netlink/archival-record.go:270-298: the loop over attribute types, `tp` is the index. Lists have equal length (263-268), the
`tp >= len(pm.Attributes)` case (279-281) is the shorter-second-list case. -/
def compareAttrsLoop : (tp : Nat) → (prev cur : List (Option GoSlice)) → ChangeType
  | _, [], _ => .noMajorChange
  | _, _ :: _, [] => .lostAttribute
  | tp, a :: as, b :: bs =>
    if tp = INET_DIAG_INFO then compareAttrsLoop (tp + 1) as bs
    else match a, b with
      | none, some _ => .newAttribute
      | some _, none => .lostAttribute
      | none, none => compareAttrsLoop (tp + 1) as bs
      | some x, some y =>
        if x.val.length ≠ y.val.length then .attributeLength
        else if x.val ≠ y.val then .other
        else compareAttrsLoop (tp + 1) as bs

/-- netlink/archival-record.go:220-301 `Compare` (`pm.Compare(previous)`). -/
def compareRecords (pm : ArchivalRecord) (previous : Option ArchivalRecord) : Res GoErr ChangeType :=
  match previous with
  | none => .ok .previousWasNil
  | some previous =>
    match parseIDM previous.raw with
    | .panic => .panic
    | .err _ => .err .parseFailed
    | .ok prevIDM =>
    match parseIDM pm.raw with
    | .panic => .panic
    | .err _ => .err .parseFailed
    | .ok pmIDM =>
    if prevIDM.state ≠ pmIDM.state then .ok .iDiagStateChange
    else if previous.attrs.length ≤ INET_DIAG_INFO ∨ pm.attrs.length ≤ INET_DIAG_INFO then .ok .noTCPInfo
    else match previous.attrs[INET_DIAG_INFO]?, pm.attrs[INET_DIAG_INFO]? with
      | none, _ => .panic -- index out of range
      | _, none => .panic
      | some (some a), some (some b) =>
        match a.slice? pmtuOffset busytimeOffset, b.slice? pmtuOffset busytimeOffset with
        | some a1, some b1 =>
          if a1 ≠ b1 then .ok .stateOrCounterChange
          else match a.slice? 0 lastDataSentOffset, b.slice? 0 lastDataSentOffset with
            | some a2, some b2 =>
              if a2 ≠ b2 then .ok .stateOrCounterChange
              else if previous.attrs.length < pm.attrs.length then .ok .newAttribute
              else if previous.attrs.length > pm.attrs.length then .ok .lostAttribute
              else .ok (compareAttrsLoop 0 previous.attrs pm.attrs)
            | _, _ => .panic
        | _, _ => .panic
      | _, _ => .ok .noTCPInfo

/-! ## Stats -/

/-- netlink/archival-record.go:395-397 `HasDiagInfo`. -/
def hasDiagInfo (r : ArchivalRecord) : Bool := r.attrs.length > INET_DIAG_INFO

/-- `*(*uint64)(unsafe.Pointer(&raw[off]))`; `none`: the index is out of range (panic), or the load goes beyond the end of the slice. -/
def load64 (off : Nat) (raw : Bytes) : Option UInt64 := if off + 8 ≤ raw.length then some (u64At off raw) else none

/-- netlink/archival-record.go:403-416 `GetStats` (sent, received); `none` = panic, or a load outside the attribute. -/
def getStatsGo (r : ArchivalRecord) : Option (UInt64 × UInt64) :=
  if r.attrs.length ≤ INET_DIAG_INFO then some (0, 0)
  else match r.attrs[INET_DIAG_INFO]? with
    | none => none -- index out of range
    | some info =>
      let raw := match info with | none => [] | some s => s.val
      if raw.length < bytesSentOffset + 8 ∨ raw.length < bytesReceivedOffset + 8 then some (0, 0)
      else match load64 bytesSentOffset raw, load64 bytesReceivedOffset raw with
        | some s, some r => some (s, r)
        | _, _ => none

/-- netlink/archival-record.go:403-416 `GetStats`, for its callers, which rely on its not failing (`C19_no_panic`). -/
def getStats (r : ArchivalRecord) : UInt64 × UInt64 := (getStatsGo r).getD (0, 0)

end TcpInfo
