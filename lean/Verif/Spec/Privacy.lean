import Verif.Spec.Saver
import Verif.Spec.Record
import Verif.Spec.Trace
/-!
# Inputs that differ in addresses only
-/

namespace TcpInfo.Spec
open TcpInfo

/-- Two messages are the same except for the address bytes (8 to 39 of the payload). Nothing is said about what follows in the receive buffer, which may
hold other messages. -/
structure SameMessage (m m' : NetlinkMessage) : Prop where
  header : m.header = m'.header
  length : m.data.length = m'.data.length
  before : m.data.take 8 = m'.data.take 8
  after : m.data.drop 40 = m'.data.drop 40

/-- The addresses in two payloads of the same family are anonymized to the same. An IPv4 address (family 2) has the first four of the 16 bytes of its field;
the other bytes are not part of it. -/
def SameAnonymized (anon : Bytes → Bytes) (d d' : Bytes) : Prop :=
  (byte d 0 = 2 → anon (sub 8 4 d) = anon (sub 8 4 d') ∧ anon (sub 24 4 d) = anon (sub 24 4 d') ∧ sub 12 12 d = sub 12 12 d' ∧ sub 28 12 d = sub 28 12 d')
  ∧ (byte d 0 = 10 → anon (sub 8 16 d) = anon (sub 8 16 d') ∧ anon (sub 24 16 d) = anon (sub 24 16 d'))

/-- A payload of a connection that the configuration excludes. -/
def Excludes (ex : Option ExcludeConfig) (data : Bytes) : Prop :=
  ∃ c, ex = some c ∧ ∃ (d : DiagMsg) (rest : Bytes), data = d.wire ++ rest ∧ Excluded (c.srcPorts.getD []) c.localConns (c.dstIPs.getD []) d

/-- Two messages that anonymization should make indistinguishable: they differ in addresses only, these are anonymized to the same, and both are excluded
by the configuration or none is. -/
def Alike (anon : Bytes → Bytes) (ex : Option ExcludeConfig) : Option NetlinkMessage → Option NetlinkMessage → Prop
  | none, none => True
  | some m, some m' => SameMessage m m' ∧ SameAnonymized anon m.data m'.data ∧ (Excludes ex m.data ↔ Excludes ex m'.data)
  | _, _ => False

/-- The same for whole polls, at the same times. -/
structure AlikeBlocks (anon : Bytes → Bytes) (ex : Option ExcludeConfig) (b c : MessageBlock) : Prop where
  time4 : b.v4Time = c.v4Time
  time6 : b.v6Time = c.v6Time
  length4 : b.v4Messages.length = c.v4Messages.length
  length6 : b.v6Messages.length = c.v6Messages.length
  messages4 : ∀ p ∈ b.v4Messages.zip c.v4Messages, Alike anon ex p.1 p.2
  messages6 : ∀ p ∈ b.v6Messages.zip c.v6Messages, Alike anon ex p.1 p.2

/-- What can be seen of an action from outside without the event socket: in events the addresses are hidden, of a record only the line of text is seen that
is made of it (`line`). -/
def hiddenAct {X : Type} (line : ArchivalRecord → X) (a : Action) : Action × Option X :=
  match a with
  | .flowCreated t u id => (.flowCreated t u { id with srcIP := "", dstIP := "" }, none)
  | .send q ⟨m, w⟩ => (.send q ⟨none, w⟩, m.map line)
  | a => (a, none)

end TcpInfo.Spec
