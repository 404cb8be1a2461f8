import Verif.Model.Snapshot
/-!
# Package netlink: reading naked netlink messages
-/

namespace TcpInfo

/-- An `io.Reader`: the bytes it will deliver, then the error it returns (`io.EOF` at the regular end). How the bytes are divided among `Read` calls does
not matter to `io.ReadFull`. -/
structure Source where
  bytes : Bytes
  fin : GoErr

/-- `io.ReadFull(r, make([]byte, n))`: no bytes: the reader's error; some bytes: `io.ErrUnexpectedEOF` in place of `io.EOF`; `n = 0` succeeds. -/
def Source.readFull (src : Source) (n : Nat) : Res GoErr (Bytes × Source) :=
  if n ≤ src.bytes.length then .ok (src.bytes.take n, { src with bytes := src.bytes.drop n })
  else if src.fin = .eof ∧ src.bytes ≠ [] then .err .unexpectedEOF
  else .err src.fin

/-- netlink/archival-record.go:310-325 `LoadRawNetlinkMessage`: also returns the rest of the source. `header.Len-16` is computed in `uint32`. -/
def loadRawNetlinkMessage (src : Source) : Res GoErr (NetlinkMessage × Source) :=
  (src.readFull 16).bind (fun (h, src) =>
    let header : NlMsghdr := ⟨u32At 0 h, u16At 4 h, u16At 6 h, u32At 8 h, u32At 12 h⟩
    (src.readFull (header.len - 16).toNat).bind (fun (data, src) =>
      .ok ({ header := header, data := data }, src)))

/-- Calling `LoadRawNetlinkMessage` until it returns an error: the messages and the error. Every message takes at least 16 bytes, so `fuel` = number of
bytes is enough (`none` does not occur, C20_complete). -/
def loadRawLoop : (fuel : Nat) → Source → List NetlinkMessage → Option (List NetlinkMessage × GoErr)
  | 0, _, _ => none
  | fuel + 1, src, acc =>
    match loadRawNetlinkMessage src with
    | .ok (m, src) => loadRawLoop fuel src (acc ++ [m])
    | .err e => some (acc, e)
    | .panic => none

/-- All messages of a source. -/
def loadRawAll (src : Source) : Option (List NetlinkMessage × GoErr) := loadRawLoop (src.bytes.length + 1) src []

/-- netlink/archival-record.go:333-349 `NewRawReader`, `rawReader.Next` on the messages of the file: `MakeArchivalRecord` until the first error. -/
def rawStream : List NetlinkMessage → GoErr → RecordStream
  | [], e => ⟨[], some e⟩
  | m :: ms, e =>
    match makeArchivalRecord m none with
    | .ok (some r) => let s := rawStream ms e; { s with records := r :: s.records }
    | .ok none => ⟨[], none⟩ -- `nil, nil`: the caller dereferences nil; does not occur without exclusion
    | .err e => ⟨[], some e⟩
    | .panic => ⟨[], none⟩

end TcpInfo
