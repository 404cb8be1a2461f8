import Verif.Model.EventClient
import Verif.Spec.Saver
import Verif.Spec.AddrText
/-!
# What a subscriber should be told about a connection
-/

namespace TcpInfo.Spec
open TcpInfo

/-- Something that is said about a connection. -/
inductive Note where
  | opened (t : Int) (id : Option SockID)
  | closed
  deriving DecidableEq

/-- The calls of a handler that concern the UUID `u`. -/
def notesOf (u : String) (calls : List EventSocket.Callback) : List Note :=
  calls.filterMap (fun c => match c with
    | .opened t u' id => if u' = u then some (.opened t id) else none
    | .closed _ u' => if u' = u then some .closed else none)

/-- The text of an address field: dotted decimal if 12 zeros follow the first four bytes, otherwise a text of the 16-byte address. -/
def Denotes (text : List Char) (b : Bytes) : Prop :=
  (∃ x y z w, b = [x, y, z, w] ++ List.replicate 12 0 ∧ text = dotted x y z w) ∨ AddrText text b

/-- `id` names the ports, the cookie and the addresses of the header in record `r`. -/
def Names (id : SockID) (r : ArchivalRecord) : Prop :=
  ∃ m : DiagMsg, ∃ rest, r.rawIDM.getD [] = m.wire ++ rest ∧ id.sport = m.sport ∧ id.dport = m.dport ∧ id.cookieUint64 = m.cookie
    ∧ Denotes id.srcIP.toList m.src.val ∧ Denotes id.dstIP.toList m.dst.val

/-- `NotesFor k h out`: connection `k` is announced, with the time and the addresses of the report, by the first report of it while it is in neither the
previous nor the current cycle, and is declared closed by the end of the first cycle that does not report it. -/
inductive NotesFor (k : UInt64) : List Call → List Note → Prop where
  | nil : NotesFor k [] []
  | first {h out r id} : NotesFor k h out → ck r = k → lastFor k (cycles h).1 = none → lastFor k (cycles h).2 = none → Names id r →
      NotesFor k (h ++ [.update r]) (out ++ [.opened r.timestamp (some id)])
  | again {h out r} : NotesFor k h out → ck r = k → (lastFor k (cycles h).1 ≠ none ∨ lastFor k (cycles h).2 ≠ none) → NotesFor k (h ++ [.update r]) out
  | other {h out r} : NotesFor k h out → ck r ≠ k → NotesFor k (h ++ [.update r]) out
  | gone {h out} : NotesFor k h out → lastFor k (cycles h).1 ≠ none → lastFor k (cycles h).2 = none → NotesFor k (h ++ [.endCycle]) (out ++ [.closed])
  | stays {h out} : NotesFor k h out → (lastFor k (cycles h).1 = none ∨ lastFor k (cycles h).2 ≠ none) → NotesFor k (h ++ [.endCycle]) out

end TcpInfo.Spec
