import Verif.Model.Marshal
import Verif.Spec.Trace
import Verif.Spec.Wire
/-!
# Specification of the contents of the output files
-/

namespace TcpInfo.Spec
open TcpInfo

/-- All bytes written to a writer. -/
def contents (ops : List FileOp) : Bytes := ops.flatMap (fun o => match o with | .data b => b | .close => [])

/-- Number of times a writer was closed. -/
def closes (ops : List FileOp) : Nat := (ops.filter (fun o => o == .close)).length

/-- Bytes were written after a close. -/
def writtenAfterClose (ops : List FileOp) : Prop := ∃ a b x, ops = a ++ FileOp.close :: b ∧ FileOp.data x ∈ b

/-- A record as one line of text. -/
def lineOf (json : ArchivalRecord → Bytes) (r : ArchivalRecord) : Bytes := json r ++ [10]

/-- The record with source and destination address (of the width that belongs to its family: 2 = AF_INET, 10 = AF_INET6) replaced by the anonymizer's
output; `none` if there is no complete header or the family is another one. -/
def anonymized (anon : Bytes → Bytes) (r : ArchivalRecord) : Option ArchivalRecord :=
  let raw := r.rawIDM.getD []
  if raw.length < 72 then none
  else
    let w := if byte raw 0 = 2 then some 4 else if byte raw 0 = 10 then some 16 else none
    w.map (fun w => { r with rawIDM := some (raw.take 8 ++ anon ((raw.drop 8).take w) ++ (raw.take 24).drop (8 + w)
      ++ anon ((raw.drop 24).take w) ++ raw.drop (24 + w)) })

/-- The text of a file: the header line, then one line for each record that can be anonymized, anonymized. -/
def fileText (json : ArchivalRecord → Bytes) (anon : Bytes → Bytes) (hd : ArchivalRecord) (rs : List ArchivalRecord) : Bytes :=
  lineOf json hd ++ (rs.filterMap (anonymized anon)).flatMap (lineOf json)

end TcpInfo.Spec
