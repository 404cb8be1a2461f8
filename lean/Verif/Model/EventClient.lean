import Verif.Model.Archive
import Verif.Model.EventSocket
/-!
# Package eventsocket: the events as JSON lines, and the client

Simplifications as in `Verif.Model.Archive`.
-/

namespace TcpInfo.EventSocket
open TcpInfo

/-- inetdiag/structs.go:139-146 `SockID` in JSON: all fields, in order, under their Go names. -/
def sockIDToJ (id : SockID) : J :=
  .obj [(key "SPort", .num (intLit id.sport.toNat)), (key "DPort", .num (intLit id.dport.toNat)), (key "SrcIP", .str (quote id.srcIP.toList)),
    (key "DstIP", .str (quote id.dstIP.toList)), (key "Interface", .num (intLit id.iface.toNat)), (key "Cookie", .num (intLit id.cookie.toInt))]

/-- The pointer `FlowEvent.ID` in JSON (eventsocket/server.go:38). -/
def optSockIDToJ : Option SockID → J
  | none => .null
  | some id => sockIDToJ id

/-- eventsocket/server.go:34-39 `FlowEvent` in JSON. The event is a number: `TCPEvent` has a `String` method but no `MarshalText`. -/
def eventToJ (zone : Int → Int) (e : FlowEvent) : Option J :=
  (timeToJ zone e.timestamp).map (fun ts =>
    .obj [(key "Event", .num (intLit e.event)), (key "Timestamp", ts), (key "UUID", .str (quote e.uuid.toList)),
      (key "ID", optSockIDToJ e.id)])

/-- `json.Marshal(*event)` (eventsocket/server.go:105); `none`: error (a year outside 0..9999). -/
def marshalEvent (zone : Int → Int) (e : FlowEvent) : Option Bytes := (eventToJ zone e).map J.enc

/-- Fields of `SockID`. -/
inductive SockIDField where
  | sport | dport | srcIP | dstIP | iface | cookie
  deriving DecidableEq

def sockIDFields : List (List Char × SockIDField) :=
  [("SPort".toList, .sport), ("DPort".toList, .dport), ("SrcIP".toList, .srcIP), ("DstIP".toList, .dstIP), ("Interface".toList, .iface),
   ("Cookie".toList, .cookie)]

/-- One member stored into a `SockID`; unknown keys are ignored. -/
def storeSockIDMember (x : SockID) (kv : Bytes × J) : Option SockID :=
  match lookupField sockIDFields (unquote kv.1) with
  | none => some x
  | some .sport => (storeInt 0 65535 x.sport.toNat kv.2).map (fun v => { x with sport := UInt16.ofNat v.toNat })
  | some .dport => (storeInt 0 65535 x.dport.toNat kv.2).map (fun v => { x with dport := UInt16.ofNat v.toNat })
  | some .srcIP => (storeString x.srcIP kv.2).map (fun v => { x with srcIP := v })
  | some .dstIP => (storeString x.dstIP kv.2).map (fun v => { x with dstIP := v })
  | some .iface => (storeInt 0 4294967295 x.iface.toNat kv.2).map (fun v => { x with iface := UInt32.ofNat v.toNat })
  | some .cookie => (storeInt minInt64 maxInt64 x.cookie.toInt kv.2).map (fun v => { x with cookie := Int64.ofInt v })

/-- `SockID{}`. -/
def zeroSockID : SockID := { sport := 0, dport := 0, srcIP := "", dstIP := "", iface := 0, cookie := 0 }

/-- encoding/json into a `*SockID`: null is nil, an object is stored into what is there. -/
def storeSockID (cur : Option SockID) : J → Option (Option SockID)
  | .null => some none
  | .obj l => (foldMembers storeSockIDMember l (cur.getD zeroSockID)).map some
  | _ => none

/-- Fields of `FlowEvent`. -/
inductive EventField where
  | event | timestamp | uuid | id
  deriving DecidableEq

def eventFields : List (List Char × EventField) :=
  [("Event".toList, .event), ("Timestamp".toList, .timestamp), ("UUID".toList, .uuid), ("ID".toList, .id)]

/-- One member stored into a `FlowEvent`; unknown keys are ignored. -/
def storeEventMember (e : FlowEvent) (kv : Bytes × J) : Option FlowEvent :=
  match lookupField eventFields (unquote kv.1) with
  | none => some e
  | some .event => (storeInt minInt64 maxInt64 e.event kv.2).map (fun v => { e with event := v })
  | some .timestamp => (storeTime e.timestamp kv.2).map (fun v => { e with timestamp := v })
  | some .uuid => (storeString e.uuid kv.2).map (fun v => { e with uuid := v })
  | some .id => (storeSockID e.id kv.2).map (fun v => { e with id := v })

/-- `FlowEvent{}`. -/
def zeroEvent : FlowEvent := { event := 0, timestamp := goZeroTime, uuid := "", id := none }

/-- Decoding into a fresh `FlowEvent`: null changes nothing. -/
def eventOfJ : J → Option FlowEvent
  | .null => some zeroEvent
  | .obj l => foldMembers storeEventMember l zeroEvent
  | _ => none

/-- `json.Unmarshal(s.Bytes(), &event)` (eventsocket/client.go:50); `none`: error. -/
def unmarshalEvent (b : Bytes) : Option FlowEvent := (parseJson b).bind eventOfJ

/-- Calls of the handler's methods. -/
inductive Callback where
  | opened (timestamp : Int) (uuid : String) (id : Option SockID)
  | closed (timestamp : Int) (uuid : String)
  deriving DecidableEq

/-- How `MustRun` ends: it returns, or the process ends in `rtx.Must`. -/
inductive Ending where
  | returns
  | fatal (e : GoErr)
  deriving DecidableEq

/-- eventsocket/client.go:51-58: the switch on the type of event; an unknown one is only logged. -/
def dispatch (e : FlowEvent) : List Callback :=
  if e.event = Open then [.opened e.timestamp e.uuid e.id]
  else if e.event = Close then [.closed e.timestamp e.uuid]
  else []

/-- eventsocket/client.go:48-59: the loop over the lines: calls, and whether unmarshalling failed. -/
def clientLoop : List Bytes → List Callback × Bool
  | [] => ([], false)
  | l :: ls =>
    match unmarshalEvent l with
    | none => ([], true)
    | some e => (dispatch e ++ (clientLoop ls).1, (clientLoop ls).2)

/-- eventsocket/client.go:34-75 `MustRun`, connected: `src` is what is read from the socket until its end (`io.EOF`), until the connection is closed
because the context is done, or until another error. Closing happens concurrently: `src.bytes` is what was read before. -/
def mustRun (src : Source) : List Callback × Ending :=
  let r := clientLoop (scanLines [] src.bytes).1
  if r.2 then (r.1, .fatal .json)
  else match scanErr src with
    | none => (r.1, .returns)
    | some e => (r.1, if e = .connClosed then .returns else .fatal e)

end TcpInfo.EventSocket
