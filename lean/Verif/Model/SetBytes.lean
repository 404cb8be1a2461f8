import Verif.Model.Netlink
/-!
# The setters of the byte counters (netlink/archival-record.go:418-453)
-/

namespace TcpInfo

/-- The eight bytes that `*p = value` stores (little-endian machine, as for the reads). -/
def u64Bytes (v : UInt64) : Bytes :=
  [v.toUInt8, (v >>> 8).toUInt8, (v >>> 16).toUInt8, (v >>> 24).toUInt8, (v >>> 32).toUInt8, (v >>> 40).toUInt8, (v >>> 48).toUInt8, (v >>> 56).toUInt8]

/-- `*(*uint64)(unsafe.Pointer(&raw[off])) = v`; the caller has tested that the bytes exist. -/
def putU64 (off : Nat) (v : UInt64) (b : Bytes) : Bytes := b.take off ++ u64Bytes v ++ b.drop (off + 8)

/-- The common body of the two setters. `testing`: the flag `test.v` is defined, which is so in test binaries only; `none` = panic, or an access outside the attribute. Returns the record and
the previous value. The store goes through the attribute's backing array; the model changes this one record (records that share the array, i.e. other copies
of the same slice, change with it). -/
def setCounter (off : Nat) (testing : Bool) (r : ArchivalRecord) (value : UInt64) : Option (ArchivalRecord × UInt64) :=
  if testing = false then none
  else if r.attrs.length ≤ INET_DIAG_INFO then some (r, 0)
  else match r.attrs[INET_DIAG_INFO]? with
    | none => none -- index out of range
    | some none => if 0 < off + 8 then some (r, 0) else none -- nil has length 0
    | some (some s) =>
      if s.val.length < off + 8 then some (r, 0)
      else match load64 off s.val with
        | none => none
        | some prev => some ({ r with attributes := some (r.attrs.set INET_DIAG_INFO (some { s with val := putU64 off value s.val })) }, prev)

/-- netlink/archival-record.go:418-434 `SetBytesReceived`. -/
def setBytesReceived (testing : Bool) (r : ArchivalRecord) (value : UInt64) : Option (ArchivalRecord × UInt64) :=
  setCounter bytesReceivedOffset testing r value

/-- netlink/archival-record.go:436-453 `SetBytesSent`. -/
def setBytesSent (testing : Bool) (r : ArchivalRecord) (value : UInt64) : Option (ArchivalRecord × UInt64) :=
  setCounter bytesSentOffset testing r value

end TcpInfo
