import Verif.Model.Json
import Verif.Model.RawReader
/-!
# Archive files: records as JSON lines (packages netlink, snapshot)

`json.Marshal` and `json.Unmarshal` of an `ArchivalRecord`, and the readers of JSONL files. Simplifications: strings are valid Unicode (Go strings may
hold other bytes, which `json.Marshal` replaces by U+FFFD); a time is an instant (location and monotonic clock are not part of it); time zones are whole
minutes; `json.Unmarshal` errors are not distinguished.
-/

namespace TcpInfo

/-! ## Marshalling -/

/-- A key of an object; the names of the fields are ASCII letters and need no escapes. -/
def key (s : String) : Bytes := asc s

/-- encoding/json `encodeByteSlice`: nil is `null`, else base64. -/
def bytesToJ : Option Bytes → J
  | none => .null
  | some b => .str (b64Enc b)

/-- A time in its zone (`zone t`: minutes east of Greenwich at instant `t`); `none`: error. -/
def timeToJ (zone : Int → Int) (t : Int) : Option J := (fmtTime (zone t) t).map J.str

/-- netlink/archival-record.go:29-33 `Metadata`. -/
def metadataToJ (zone : Int → Int) (m : Metadata) : Option J :=
  (timeToJ zone m.startTime).map (fun st =>
    .obj [(key "UUID", .str (quote m.uuid.toList)), (key "Sequence", .num (intLit m.sequence)), (key "StartTime", st)])

/-- netlink/archival-record.go:36-50 `ArchivalRecord`: `omitempty` leaves out nil and empty slices and nil pointers, but not the time (a struct). -/
def recordToJ (zone : Int → Int) (r : ArchivalRecord) : Option J :=
  (timeToJ zone r.timestamp).bind (fun ts =>
    let raw := if r.raw = [] then [] else [(key "RawIDM", bytesToJ r.rawIDM)]
    let attrs := if r.attrs = [] then [] else [(key "Attributes", J.arr (r.attrs.map (fun a => bytesToJ (a.map (·.val)))))]
    match r.metadata with
    | none => some (.obj ((key "Timestamp", ts) :: (raw ++ attrs)))
    | some m => (metadataToJ zone m).map (fun mj => .obj ((key "Timestamp", ts) :: (raw ++ (attrs ++ [(key "Metadata", mj)])))))

/-- `json.Marshal(record)`; `none`: error (a year outside 0..9999). -/
def marshalRecord (zone : Int → Int) (r : ArchivalRecord) : Option Bytes := (recordToJ zone r).map J.enc

/-! ## Unmarshalling -/

/-- encoding/json into a `[]byte`: null is nil, a string is base64, an array holds the bytes (null leaves a byte 0). -/
def bytesOfJ : J → Option (Option Bytes)
  | .null => some none
  | .str raw => (b64Dec (unquoteBytes raw)).map some
  | .arr l => (l.mapM (fun j => (storeInt 0 255 0 j).map (fun i => UInt8.ofNat i.toNat))).map some
  | _ => none

/-- The slice of a decoded `[]byte`: base64 is decoded into a buffer of `DecodedLen` bytes. The spare bytes are zeros, one per padding character (text without line breaks). -/
def sliceOfJ (j : J) : Option (Option GoSlice) :=
  (bytesOfJ j).map (fun o => o.map (fun b => { val := b, spare := List.replicate ((3 - b.length % 3) % 3) 0 }))

/-- encoding/json into a `[][]byte`. -/
def attrsOfJ : J → Option (Option (List (Option GoSlice)))
  | .null => some none
  | .arr l => (l.mapM sliceOfJ).map some
  | _ => none

/-- Fields of `Metadata`. -/
inductive MetadataField where
  | uuid | sequence | startTime
  deriving DecidableEq

def metadataFields : List (List Char × MetadataField) :=
  [("UUID".toList, .uuid), ("Sequence".toList, .sequence), ("StartTime".toList, .startTime)]

/-- Range of `int`. -/
abbrev minInt64 : Int := -9223372036854775808
abbrev maxInt64 : Int := 9223372036854775807

/-- One member stored into a `Metadata`; unknown keys are ignored. -/
def storeMetadataMember (m : Metadata) (kv : Bytes × J) : Option Metadata :=
  match lookupField metadataFields (unquote kv.1) with
  | none => some m
  | some .uuid => (storeString m.uuid kv.2).map (fun u => { m with uuid := u })
  | some .sequence => (storeInt minInt64 maxInt64 m.sequence kv.2).map (fun s => { m with sequence := s })
  | some .startTime => (storeTime m.startTime kv.2).map (fun t => { m with startTime := t })

/-- encoding/json into a `*Metadata`: null is nil, an object is stored into what is there. -/
def storeMetadata (cur : Option Metadata) : J → Option (Option Metadata)
  | .null => some none
  | .obj l => (foldMembers storeMetadataMember l (cur.getD ⟨"", 0, goZeroTime⟩)).map some
  | _ => none

/-- Fields of `ArchivalRecord`. -/
inductive RecordField where
  | timestamp | rawIDM | attributes | metadata
  deriving DecidableEq

def recordFields : List (List Char × RecordField) :=
  [("Timestamp".toList, .timestamp), ("RawIDM".toList, .rawIDM), ("Attributes".toList, .attributes), ("Metadata".toList, .metadata)]

/-- One member stored into an `ArchivalRecord`; unknown keys are ignored. -/
def storeRecordMember (r : ArchivalRecord) (kv : Bytes × J) : Option ArchivalRecord :=
  match lookupField recordFields (unquote kv.1) with
  | none => some r
  | some .timestamp => (storeTime r.timestamp kv.2).map (fun t => { r with timestamp := t })
  | some .rawIDM => (bytesOfJ kv.2).map (fun b => { r with rawIDM := b })
  | some .attributes => (attrsOfJ kv.2).map (fun a => { r with attributes := a })
  | some .metadata => (storeMetadata r.metadata kv.2).map (fun m => { r with metadata := m })

/-- `ArchivalRecord{}`. -/
def zeroRecord : ArchivalRecord := { timestamp := goZeroTime, rawIDM := none, attributes := none, metadata := none }

/-- Decoding into a fresh `ArchivalRecord`: null changes nothing. -/
def recordOfJ : J → Option ArchivalRecord
  | .null => some zeroRecord
  | .obj l => foldMembers storeRecordMember l zeroRecord
  | _ => none

/-- `json.Unmarshal(buf, &record)` (netlink/archival-record.go:368-372); `none`: error. -/
def unmarshalRecord (b : Bytes) : Option ArchivalRecord := (parseJson b).bind recordOfJ

/-! ## Lines -/

/-- bufio `MaxScanTokenSize`. -/
abbrev maxScanTokenSize : Nat := 65536

/-- bufio `dropCR`. -/
def dropCR (b : Bytes) : Bytes := if b.getLast? = some 13 then b.dropLast else b

/-- `bufio.Scanner` with `ScanLines`: the tokens, and whether scanning ended because a line does not fit (`ErrTooLong`). `cur`: the line so far. A line
together with its newline must fit into 64 KiB; the last line needs no newline; it is returned even if the reader ends with an error. -/
def scanLines : (cur : Bytes) → Bytes → List Bytes × Bool
  | cur, [] => if maxScanTokenSize ≤ cur.length then ([], true) else if cur = [] then ([], false) else ([dropCR cur], false)
  | cur, c :: r =>
    if maxScanTokenSize ≤ cur.length then ([], true)
    else if c = 10 then (dropCR cur :: (scanLines [] r).1, (scanLines [] r).2)
    else scanLines (cur ++ [c]) r

/-- `scanner.Err()` after `Scan` has returned false: `none` for `io.EOF`. -/
def scanErr (src : Source) : Option GoErr :=
  if (scanLines [] src.bytes).2 then some .tooLong else if src.fin = .eof then none else some src.fin

/-- netlink/archival-record.go:362-374 `archiveReader.Next` on the tokens of the scanner: `io.EOF` when there are no more, whatever the reason. -/
def archiveTokens : List Bytes → RecordStream
  | [] => ⟨[], some .eof⟩
  | t :: ts =>
    match unmarshalRecord t with
    | some r => { archiveTokens ts with records := r :: (archiveTokens ts).records }
    | none => ⟨[], some .json⟩

/-- netlink/archival-record.go:356-359 `NewArchiveReader`, as a stream of records. -/
def archiveStream (src : Source) : RecordStream := archiveTokens (scanLines [] src.bytes).1

/-- netlink/archival-record.go:377-392 `LoadAllArchivalRecords`: the records and the error. -/
def loadAllArchivalRecords (src : Source) : List ArchivalRecord × Option GoErr :=
  let s := archiveStream src
  (s.records, if s.fin = some .eof then none else s.fin)

end TcpInfo
