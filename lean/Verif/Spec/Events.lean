import Verif.Spec.Subscriber
/-!
# What a subscriber is really told about a connection, also when files cannot be created
-/

namespace TcpInfo.Spec
open TcpInfo

/-- What is said by a due report `r`: nothing if its connection is known, otherwise that it is opened, with time, ports, cookie and addresses of `r`. -/
inductive Said (r : ArchivalRecord) : Bool → List Note → Prop where
  | nothing : Said r true []
  | opened (id : SockID) : Names id r → Said r false [.opened r.timestamp (some id)]

/-- `EventsFor k h saved out known filed`: the history of reports `h` and the records `saved` of connection `k` that could be saved determine what is said
about it (`out`), whether it is still thought to exist (`known`) and whether a file is open for it (`filed`).

A due report makes the connection known, and is saved exactly if there is a file for it then. At the end of the first cycle without the connection, it
is declared closed; but it is forgotten only if there is a file to be closed. -/
inductive EventsFor (k : UInt64) : List Call → List ArchivalRecord → List Note → Bool → Bool → Prop where
  | nil : EventsFor k [] [] [] false false
  | saved {h saved out known filed r said} : EventsFor k h saved out known filed → ck r = k → k ≠ 0 → Due h r → Said r known said →
      EventsFor k (h ++ [.update r]) (saved ++ [r]) (out ++ said) true true
  | lost {h saved out known filed r said} : EventsFor k h saved out known filed → ck r = k → k ≠ 0 → Due h r → Said r known said →
      EventsFor k (h ++ [.update r]) saved (out ++ said) true false
  | other {h saved out known filed r} : EventsFor k h saved out known filed → (ck r ≠ k ∨ k = 0 ∨ ¬ Due h r) →
      EventsFor k (h ++ [.update r]) saved out known filed
  | gone {h saved out known filed} : EventsFor k h saved out known filed → lastFor k (cycles h).1 ≠ none → lastFor k (cycles h).2 = none →
      EventsFor k (h ++ [.endCycle]) saved (out ++ [.closed]) (known && !filed) false
  | stays {h saved out known filed} : EventsFor k h saved out known filed → (lastFor k (cycles h).1 = none ∨ lastFor k (cycles h).2 ≠ none) →
      EventsFor k (h ++ [.endCycle]) saved out known filed

/-- How often connection `k` disappears in a history: the cycles that end without it although it was in the one before. -/
def vanished (k : UInt64) (h : List Call) : Nat :=
  ((List.range h.length).filter (fun i => decide (h[i]? = some .endCycle ∧ lastFor k (cycles (h.take i)).1 ≠ none
    ∧ lastFor k (cycles (h.take i)).2 = none))).length

end TcpInfo.Spec
