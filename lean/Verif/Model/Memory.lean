import Verif.Model.Netlink
/-!
# Shared memory: receive buffers, slices into them, in-place anonymization

Elsewhere in the model a record is a value, and what the saver sees when it reads a cached record again is given by the environment (`Env.view`). Here is
where these bytes are: `Receive` (github.com/vishvananda/netlink v1.1.0 nl/nl_linux.go) allocates a buffer for each datagram, and messages
(`syscall.ParseNetlinkMessage`), raw headers and attributes (netlink/archival-record.go) are slices of it. Marshallers write to headers in place
(inetdiag/structs.go:308-329). Addresses are numbers, and memory maps them to bytes. Simplification: writes are of single bytes and take effect in some
order (byte stores on x86-64 do not tear, and do not touch neighbouring bytes).
-/

namespace TcpInfo

/-- Memory. -/
abbrev Mem := Nat → UInt8

/-- A Go slice: pointer, length, capacity. -/
structure PSlice where
  base : Nat
  len : Nat
  cap : Nat
  deriving DecidableEq, Inhabited

/-- `n` bytes starting at address `a`. -/
def Mem.bytes (m : Mem) (a n : Nat) : Bytes := (List.range n).map (fun i => m (a + i))

/-- The contents of a slice. -/
def PSlice.read (m : Mem) (s : PSlice) : Bytes := m.bytes s.base s.len
/-- What is between length and capacity. -/
def PSlice.spare (m : Mem) (s : PSlice) : Bytes := m.bytes (s.base + s.len) (s.cap - s.len)
/-- `s[k:]`; used only if `k ≤ len(s)`. -/
def PSlice.after (s : PSlice) (k : Nat) : PSlice := ⟨s.base + k, s.len - k, s.cap - k⟩
/-- `s[:k]`; used only if `k ≤ len(s)`. -/
def PSlice.upto (s : PSlice) (k : Nat) : PSlice := ⟨s.base, k, s.cap⟩
/-- Contents with what is behind them. -/
def PSlice.load (m : Mem) (s : PSlice) : GoSlice := ⟨s.read m, s.spare m⟩

/-- A message: header (copied) and data. -/
structure PMessage where
  header : NlMsghdr
  data : PSlice
  deriving DecidableEq, Inhabited

/-- The message as a value, while memory is `m`. -/
def PMessage.load (m : Mem) (p : PMessage) : NetlinkMessage := ⟨p.header, p.data.read m, p.data.spare m⟩

/-- The fields of `syscall.NlMsghdr` (little endian): length, type, flags, sequence number, port id. -/
def parseNlMsghdr (b : Bytes) : NlMsghdr :=
  { len := u32At 0 b, type := u16At 4 b, flags := u16At 6 b, seq := u32At 8 b, pid := u32At 12 b }

/-- `nlmAlignOf` of Go's syscall/netlink_linux.go: up to a multiple of 4. -/
def nlmAlignOf (n : Nat) : Nat := (n + 3) / 4 * 4

/-- Messages found before those of the rest of the datagram; an error in the rest remains. -/
def addMessages (ps : List PMessage) : Fueled (Res GoErr (List PMessage)) → Fueled (Res GoErr (List PMessage))
  | some (.ok l) => some (.ok (ps ++ l))
  | r => r

/-- Go's `syscall.ParseNetlinkMessage` (syscall/netlink_linux.go), called by `Receive` (collector/socket-monitor_linux.go:115): while there are at
least 16 bytes, the header tells how many bytes the message has; 16 ≤ length, and aligned not more than there are, or the result is `EINVAL`. `fuel`
bounds the number of iterations. -/
def parseNetlinkLoop (m : Mem) : (fuel : Nat) → (b : PSlice) → Fueled (Res GoErr (List PMessage))
  | 0, _ => none
  | fuel + 1, b =>
    if b.len < 16 then some (.ok [])
    else
      let h := parseNlMsghdr (b.read m)
      if h.len.toNat < 16 ∨ nlmAlignOf h.len.toNat > b.len then some (.err .einval)
      else addMessages [⟨h, (b.after 16).upto (h.len.toNat - 16)⟩] (parseNetlinkLoop m fuel (b.after (nlmAlignOf h.len.toNat)))

/-- Go's `syscall.ParseNetlinkMessage`. One iteration per 16 bytes is enough (C88). -/
def parseNetlinkMessage (m : Mem) (b : PSlice) : Fueled (Res GoErr (List PMessage)) := parseNetlinkLoop m (b.len / 16 + 1) b

/-- An attribute: type and value. -/
structure PAttr where
  type : UInt16
  value : PSlice
  deriving DecidableEq, Inhabited

/-- As a value. -/
def PAttr.load (m : Mem) (a : PAttr) : RouteAttr := ⟨a.type, a.value.load m⟩

/-- netlink/archival-record.go:98-110 `ParseRouteAttr`, see `parseRouteAttrLoop`. -/
def pParseRouteAttrLoop (m : Mem) : (fuel : Nat) → (b : PSlice) → (acc : List PAttr) → Fueled (Res GoErr (List PAttr))
  | 0, _, _ => none
  | fuel + 1, b, acc =>
    if b.len < 4 then some (.ok acc)
    else match netlinkRouteAttrAndValue (b.read m) with
      | .err e => some (.err e)
      | .panic => some .panic
      | .ok (len, typ, _, alen) =>
        if alen > b.len then some .panic
        else pParseRouteAttrLoop m fuel (b.after alen) (acc ++ [⟨typ, (b.after 4).upto (len - 4)⟩])

/-- A record: raw header and attribute table. (Timestamp and metadata are not shared.) -/
structure PRecord where
  raw : PSlice
  attrs : List (Option PSlice)
  deriving DecidableEq, Inhabited

/-- The record as a value, while memory is `m`. -/
def PRecord.load (m : Mem) (t : Int) (p : PRecord) : ArchivalRecord :=
  { timestamp := t, rawIDM := some (p.raw.read m), attributes := some (p.attrs.map (·.map (·.load m))), metadata := none }

/-- netlink/archival-record.go:149-158, see `maxAttrTypeLoop`. -/
def pMaxAttrType : List PAttr → Nat → Nat
  | [], m => m
  | a :: as, m => pMaxAttrType as (if a.type.toNat > m then a.type.toNat else m)

/-- netlink/archival-record.go:159-171, see `fillAttrs`. -/
def pFillAttrs : List PAttr → Nat → List (Option PSlice) → List (Option PSlice)
  | [], _, tbl => tbl
  | a :: as, maxT, tbl => if a.type.toNat > maxT then pFillAttrs as maxT tbl else pFillAttrs as maxT (tbl.set a.type.toNat (some a.value))

/-- netlink/archival-record.go:143-172, see `makeRecord`. -/
def pMakeRecord (m : Mem) (raw attrs : PSlice) : Res GoErr (Option PRecord) :=
  match pParseRouteAttrLoop m (attrs.len / 4 + 1) attrs [] with
  | none => .panic
  | some .panic => .panic
  | some (.err e) => .err e
  | some (.ok as) =>
    let t := pMaxAttrType as 0
    let t := if t > 2 * INET_DIAG_MAX then 2 * INET_DIAG_MAX else t
    .ok (some ⟨raw, pFillAttrs as t (List.replicate (t + 1) none)⟩)

/-- netlink/archival-record.go:116-173 `MakeArchivalRecord`, inetdiag/structs.go:273-283 `SplitInetDiagMsg`, see `makeArchivalRecord`. -/
def pMakeArchivalRecord (m : Mem) (msg : PMessage) (exclude : Option ExcludeConfig) : Res GoErr (Option PRecord) :=
  if msg.header.type ≠ 20 then .err .notType20
  else if msg.data.len < 72 then .err .parseFailed
  else
    let raw := msg.data.upto 72
    let attrs := msg.data.after 72
    match exclude with
    | none => pMakeRecord m raw attrs
    | some ex =>
      match parseIDM (raw.read m) with
      | .err e => .err e
      | .panic => .panic
      | .ok idm => if ex.excludes idm then .ok none else pMakeRecord m raw attrs

/-- Store a byte. -/
def Mem.set (m : Mem) (a : Nat) (v : UInt8) : Mem := fun x => if x = a then v else m x
/-- Store bytes at consecutive addresses, from the first one on. -/
def Mem.store (m : Mem) (a : Nat) : Bytes → Mem
  | [] => m
  | v :: vs => (m.set a v).store (a + 1) vs

/-- Successive byte stores: address and value. -/
def Mem.stores (m : Mem) : List (Nat × UInt8) → Mem
  | [] => m
  | (a, v) :: l => (m.set a v).stores l

/-- The byte stores that put `vs` at `a`, in ascending order. -/
def storesAt (a : Nat) (vs : Bytes) : List (Nat × UInt8) := (List.range vs.length).map (fun i => (a + i, vs.getD i 0))

/-- inetdiag/structs.go:308-329 `RawInetDiagMsg.Anonymize`: the stores it makes. Simplification: the anonymizer stores every byte of the address once
and in ascending order (`Heap.Step` allows these stores in any order and number, with any values). -/
def anonymizeStores (anon : Anonymizer) (m : Mem) (raw : PSlice) : List (Nat × UInt8) :=
  match parseIDM (raw.read m) with
  | .ok msg =>
    if msg.family = AF_INET6 then
      storesAt (raw.base + 8) (anon.f (m.bytes (raw.base + 8) 16)) ++ storesAt (raw.base + 24) (anon.f (m.bytes (raw.base + 24) 16))
    else if msg.family = AF_INET then
      storesAt (raw.base + 8) (anon.f (m.bytes (raw.base + 8) 4)) ++ storesAt (raw.base + 24) (anon.f (m.bytes (raw.base + 24) 4))
    else []
  | _ => []

/-- Shared memory, the buffers allocated by `Receive`, and the messages in them. -/
structure Heap where
  mem : Mem
  buffers : List PSlice
  msgs : List PMessage

/-- Two slices have no byte in common, not even behind their lengths. -/
def PSlice.disjoint (a b : PSlice) : Prop := a.base + a.cap ≤ b.base ∨ b.base + b.cap ≤ a.base

/-- What happens to shared memory. -/
inductive Heap.Step : Heap → Heap → Prop
  /-- `Receive`: a new buffer for a datagram, and the messages found in it. -/
  | receive (h : Heap) (b : PSlice) (data : Bytes) (l : List PMessage) (hlen : data.length = b.len) (hcap : b.len ≤ b.cap)
      (hnew : ∀ b' ∈ h.buffers, b.disjoint b') (hparse : parseNetlinkMessage (h.mem.store b.base data) b = some (.ok l)) :
      Heap.Step h ⟨h.mem.store b.base data, h.buffers ++ [b], h.msgs ++ l⟩
  /-- A marshaller is in the midst of `Anonymize` for a record made from a message, and makes one of its stores. (`m'` and `m''` are the memory when the
  record was made and when `Anonymize` began; nothing is assumed about them, nor about order and number of the stores.) -/
  | anonymize (h : Heap) (msg : PMessage) (hm : msg ∈ h.msgs) (ex : Option ExcludeConfig) (m' m'' : Mem) (p : PRecord)
      (hp : pMakeArchivalRecord m' msg ex = .ok (some p)) (anon : Anonymizer) (a : Nat) (v : UInt8) (hs : (a, v) ∈ anonymizeStores anon m'' p.raw) :
      Heap.Step h ⟨h.mem.set a v, h.buffers, h.msgs⟩

/-- Any number of steps. -/
inductive Heap.Steps : Heap → Heap → Prop
  | refl (h : Heap) : Heap.Steps h h
  | tail {h1 h2 h3 : Heap} : Heap.Steps h1 h2 → Heap.Step h2 h3 → Heap.Steps h1 h3

/-- At the start nothing has been received. -/
def Heap.init (m : Mem) : Heap := ⟨m, [], []⟩

end TcpInfo
