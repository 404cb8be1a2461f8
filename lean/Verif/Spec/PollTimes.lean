import Verif.Model.PollTimes
/-!
# Specification: what a poll consists of
-/

namespace TcpInfo.Spec
open TcpInfo

/-- A poll: what the kernel answered, and when each part took place, by the monotonic and by the wall clock. -/
structure PollRec where
  begun : Int × Int
  asked6 : Int × Int
  answered6 : Int × Int
  timed6 : Int × Int
  read6 : Int × Int
  asked4 : Int × Int
  answered4 : Int × Int
  timed4 : Int × Int
  read4 : Int × Int
  sent : Int × Int
  msgs6 : List NetlinkMessage
  err6 : Option GoErr
  msgs4 : List NetlinkMessage
  err4 : Option GoErr
  deriving Inhabited

/-- The block that such a poll is to give: the messages of both families, those of a failed dump left out, each family with the wall clock's time after its answer. -/
def PollRec.block (p : PollRec) : MessageBlock where
  v6Time := p.read6.2
  v6Messages := if p.err6 = none then p.msgs6.map some else []
  v4Time := p.read4.2
  v4Messages := if p.err4 = none then p.msgs4.map some else []

/-- The events of such a poll: IPv6 is asked for, then IPv4; each dump is timed, by the monotonic clock, from its request until after its answer. -/
def PollRec.entries (p : PollRec) : List Poll.Entry :=
  [⟨p.begun.1, p.begun.2, .poll⟩,
   ⟨p.asked6.1, p.asked6.2, .request 10⟩, ⟨p.answered6.1, p.answered6.2, .reply 10 p.msgs6 p.err6⟩,
   ⟨p.timed6.1, p.timed6.2, .latency "ipv6" (p.timed6.1 - p.asked6.1)⟩, ⟨p.read6.1, p.read6.2, .clock⟩,
   ⟨p.asked4.1, p.asked4.2, .request 2⟩, ⟨p.answered4.1, p.answered4.2, .reply 2 p.msgs4 p.err4⟩,
   ⟨p.timed4.1, p.timed4.2, .latency "ipv4" (p.timed4.1 - p.asked4.1)⟩, ⟨p.read4.1, p.read4.2, .clock⟩,
   ⟨p.sent.1, p.sent.2, .submit p.block⟩]

/-- The wall clock, `off` ahead of the monotonic clock at first, is not set back in the course of `cs`. -/
def NotSetBack (off : Int) : List Poll.Choice → Prop
  | [] => True
  | .setClock o :: cs => off ≤ o ∧ NotSetBack o cs
  | _ :: cs => NotSetBack off cs

/-- The blocks submitted. -/
def submitted (log : List Poll.Entry) : List MessageBlock := log.filterMap (fun e => match e.ev with | .submit b => some b | _ => none)

/-- What `SyscallTimeHistogram` has been given. -/
def latencies (log : List Poll.Entry) : List Int := log.filterMap (fun e => match e.ev with | .latency _ d => some d | _ => none)

end TcpInfo.Spec
