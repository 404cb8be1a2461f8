import Verif.Lemmas.Length
import Verif.Spec.EventClient
import Verif.Props.EventSocket
import Verif.Props.Archive
/-!
# C54, C64: the event client
-/

namespace TcpInfo
open EventSocket (FlowEvent Callback Ending expected marshalEvent unmarshalEvent mustRun evOk)

theorem dispatch_expected (es : List FlowEvent) : es.flatMap EventSocket.dispatch = es.filterMap expected := by
  induction es with
  | nil => rfl
  | cons e es ih =>
    rw [List.flatMap_cons, ih, List.filterMap_cons]
    unfold EventSocket.dispatch expected
    by_cases h0 : e.event = 0
    · simp [h0]
    · by_cases h1 : e.event = 1
      · rw [if_neg h0, if_pos h1]; simp [h1]
      · rw [if_neg h0, if_neg h1]; split <;> simp_all

/-- C54. What the server writes for an event is decoded to the event: every field, with or without a socket ID, whatever the strings contain. -/
theorem C54_roundtrip (zone : Int → Int) (hz : ∀ t, (zone t).natAbs < 1440) (e : FlowEvent) (he : minInt64 ≤ e.event ∧ e.event ≤ maxInt64) (b : Bytes)
    (h : marshalEvent zone e = some b) : unmarshalEvent b = some e := EventSocket.unmarshal_marshal hz he h

/-- C54. And it is one line: no newline or carriage return in it. -/
theorem C54_one_line (zone : Int → Int) (e : FlowEvent) (b : Bytes) (h : marshalEvent zone e = some b) : 10 ∉ b ∧ 13 ∉ b := by
  have hn := EventSocket.marshal_noCtl h
  exact ⟨fun hx => absurd (hn 10 hx) (by unfold noCtl; decide), fun hx => absurd (hn 13 hx) (by unfold noCtl; decide)⟩

/-- C54. It fits into the buffer of the client's scanner as long as the strings in the event are not excessively long. -/
theorem C54_fits (zone : Int → Int) (e : FlowEvent) (he : minInt64 ≤ e.event ∧ e.event ≤ maxInt64) (b : Bytes) (h : marshalEvent zone e = some b)
    (hl : e.uuid.length + (e.id.map (fun id => id.srcIP.length + id.dstIP.length)).getD 0 ≤ 10000) : b.length < 65536 := by
  have := EventSocket.marshalEvent_length he h
  omega

/-- C54. Whatever the socket delivers: if all its lines decode, the handler is called once for each line that is an open or close event, in order, with
the line's values, and for nothing else; then `MustRun` returns. -/
theorem C54_dispatch (src : Source) (hf : src.fin = .eof ∨ src.fin = .connClosed) (hl : ∀ l ∈ Spec.splitLines src.bytes, l.length < 65536)
    (es : List FlowEvent) (hd : (Spec.splitLines src.bytes).map (fun l => unmarshalEvent (Spec.stripCR l)) = es.map some) :
    mustRun src = (es.filterMap expected, .returns) := by
  have hs := scanLines_split src.bytes [] (by simp) (by simpa using hl)
  rw [List.nil_append] at hs
  have hc := EventSocket.clientLoop_append ((Spec.splitLines src.bytes).map Spec.stripCR) [] es (by rw [List.map_map]; exact hd)
  rw [List.append_nil, EventSocket.clientLoop, List.append_nil] at hc
  unfold mustRun scanErr
  rw [hs]
  simp only [hc, dispatch_expected]
  rcases hf with hf | hf <;> simp [hf]

/-- C54. If a line does not decode, the handler has been called for the lines before it, and the process ends. -/
theorem C54_bad_line (src : Source) (hl : ∀ l ∈ Spec.splitLines src.bytes, l.length < 65536) (ls : List Bytes) (bad : Bytes) (rest : List Bytes)
    (es : List FlowEvent) (hsp : Spec.splitLines src.bytes = ls ++ bad :: rest)
    (hd : ls.map (fun l => unmarshalEvent (Spec.stripCR l)) = es.map some) (hb : unmarshalEvent (Spec.stripCR bad) = none) :
    mustRun src = (es.filterMap expected, .fatal .json) := by
  have hs := scanLines_split src.bytes [] (by simp) (by simpa using hl)
  rw [List.nil_append, hsp, List.map_append, List.map_cons] at hs
  have hc := EventSocket.clientLoop_append (ls.map Spec.stripCR) (Spec.stripCR bad :: rest.map Spec.stripCR) es (by rw [List.map_map]; exact hd)
  rw [EventSocket.clientLoop, hb] at hc
  unfold mustRun
  rw [hs]
  simp [hc, dispatch_expected]

/-- The lines of a server, followed by anything. -/
theorem clientLoop_lines {zone : Int → Int} (hz : ∀ t, (zone t).natAbs < 1440) (env : EventSocket.Env) (hm : env.marshal = marshalEvent zone)
    (es : List FlowEvent) (hg : ∀ e ∈ es, evOk e ∧ ∃ b, marshalEvent zone e = some b ∧ b.length < maxScanTokenSize) (r : Bytes) :
    EventSocket.clientLoop (scanLines [] (EventSocket.text env es ++ r)).1
        = (es.filterMap expected ++ (EventSocket.clientLoop (scanLines [] r).1).1, (EventSocket.clientLoop (scanLines [] r).1).2)
      ∧ (scanLines [] (EventSocket.text env es ++ r)).2 = (scanLines [] r).2 := by
  have ht : EventSocket.text env es = Spec.linesText (es.map (fun e => (marshalEvent zone e).getD [])) := by
    induction es with
    | nil => rfl
    | cons e es ih =>
      rw [EventSocket.text, ih (fun e he => hg e (List.mem_cons_of_mem _ he)), hm]
      simp [Spec.linesText]
  have hs := scanLines_lines (es.map (fun e => (marshalEvent zone e).getD [])) (by
      intro t ht
      obtain ⟨e, he, rfl⟩ := List.mem_map.mp ht
      obtain ⟨b, hb, -⟩ := (hg e he).2
      rw [hb, Option.getD_some]
      exact EventSocket.marshal_noCtl hb) (by
      intro t ht
      obtain ⟨e, he, rfl⟩ := List.mem_map.mp ht
      obtain ⟨b, hb, hl⟩ := (hg e he).2
      rwa [hb, Option.getD_some]) r
  rw [ht, hs]
  refine ⟨?_, rfl⟩
  rw [EventSocket.clientLoop_append _ _ es, dispatch_expected]
  rw [List.map_map]
  apply List.map_congr_left
  intro e he
  obtain ⟨h1, b, hb, -⟩ := hg e he
  simp only [Function.comp_apply, hb, Option.getD_some]
  exact EventSocket.unmarshal_marshal hz h1 hb

/-- The events have numbers and strings of reasonable size. -/
def reasonable (es : List FlowEvent) : Prop :=
  ∀ e ∈ es, evOk e ∧ e.uuid.length + (e.id.map (fun id => id.srcIP.length + id.dstIP.length)).getD 0 ≤ 10000

theorem distributed_good {env : EventSocket.Env} {zone : Int → Int} (hm : env.marshal = marshalEvent zone) {todo : List FlowEvent}
    (hr : reasonable todo) {s : EventSocket.State} (h : EventSocket.Reachable env todo s) :
    ∀ e ∈ s.distributed, evOk e ∧ ∃ b, marshalEvent zone e = some b ∧ b.length < maxScanTokenSize := by
  intro e he
  have h1 := (C51_order env todo s h).subset he
  unfold EventSocket.good at h1
  obtain ⟨h1, h2⟩ := List.mem_filter.mp h1
  have h3 : e ∈ todo := by rw [← C51_emitted env todo s h]; exact List.mem_append_left _ h1
  obtain ⟨h4, h5⟩ := hr e h3
  rw [hm] at h2
  obtain ⟨b, hb⟩ := Option.isSome_iff_exists.mp h2
  exact ⟨h4, b, hb, C54_fits zone e h4 b hb h5⟩

/-- C54, C51 from end to end: a client of the server, connected at any point of any execution, is called for exactly the events distributed since, in the
order in which the saver emitted them; and `MustRun` returns, whether the stream ends or the client closes the connection. -/
theorem C54_end_to_end (env : EventSocket.Env) (zone : Int → Int) (hz : ∀ t, (zone t).natAbs < 1440) (hm : env.marshal = marshalEvent zone)
    (todo : List FlowEvent) (hr : reasonable todo) (s : EventSocket.State) (h : EventSocket.Reachable env todo s) (c k : Nat)
    (hk : s.regAt c = some k) (hf : s.failedAt c = none) (hp : ¬ s.pending c) (fin : GoErr) (hfin : fin = .eof ∨ fin = .connClosed) :
    mustRun ⟨s.delivered c, fin⟩ = ((s.distributed.drop k).filterMap expected, .returns) := by
  rw [((C51_received env todo s h c k hk hf).1 hp).2]
  have hg := distributed_good hm hr h
  have hc := clientLoop_lines hz env hm (s.distributed.drop k) (fun e he => hg e (List.mem_of_mem_drop he)) []
  rw [List.append_nil] at hc
  unfold mustRun scanErr
  simp only [hc]
  simp only [scanLines]
  rcases hfin with rfl | rfl <;> simp [maxScanTokenSize, EventSocket.clientLoop]

/-- C54, C51: a client to which the write of event number `j` failed is called for exactly the events before, and at most that one in addition; nothing
made up from a partial line reaches the handler. -/
theorem C54_failed_client (env : EventSocket.Env) (zone : Int → Int) (hz : ∀ t, (zone t).natAbs < 1440) (hm : env.marshal = marshalEvent zone)
    (todo : List FlowEvent) (hr : reasonable todo) (s : EventSocket.State) (h : EventSocket.Reachable env todo s) (c k j : Nat)
    (hk : s.regAt c = some k) (hf : s.failedAt c = some j) (fin : GoErr) :
    (mustRun ⟨s.delivered c, fin⟩).1 = ((s.distributed.take j).drop k).filterMap expected
      ∨ (mustRun ⟨s.delivered c, fin⟩).1 = ((s.distributed.take (j + 1)).drop k).filterMap expected := by
  obtain ⟨hkj, e, b, n, hj, hb, hn, hd⟩ := C51_received_failed env todo s h c k j hk hf
  have hg := distributed_good hm hr h
  have hge := hg e (List.mem_of_getElem? hj)
  have hc := fun r => clientLoop_lines hz env hm ((s.distributed.take j).drop k)
    (fun e he => hg e (List.mem_of_mem_take (List.mem_of_mem_drop he))) r
  have hfst : ∀ src, (mustRun src).1 = (EventSocket.clientLoop (scanLines [] src.bytes).1).1 := by
    intro src; unfold mustRun; simp only; split
    · rfl
    · split <;> rfl
  rw [hfst, hd]
  simp only [hc]
  rw [hm] at hb
  have hnc := EventSocket.marshal_noCtl hb
  have hlen : n ≤ b.length := by simp at hn; omega
  rw [List.take_append_of_le_length hlen]
  obtain ⟨b', hb', hl'⟩ := hge.2
  rw [hb] at hb'; injection hb' with hb'; subst hb'
  have hn' : ∀ x ∈ b.take n, noCtl x := fun x hx => hnc x (List.mem_of_mem_take hx)
  have h10 : ∀ x ∈ b.take n, x ≠ 10 := fun x hx e => absurd (e ▸ hn' x hx : noCtl 10) (by unfold noCtl; decide)
  have hlast := scanLines_last (b.take n) h10 [] (by simp only [List.nil_append, List.length_take]; omega)
  rw [List.nil_append, dropCR_noCtl hn'] at hlast
  rw [hlast]
  by_cases h0 : b.take n = []
  · left; rw [if_pos h0]; simp [EventSocket.clientLoop]
  · rw [if_neg h0]
    by_cases h1 : b.drop n = []
    · right
      have : b.take n = b := by conv => rhs; rw [← List.take_append_drop n b, h1, List.append_nil]
      rw [this]
      simp only [EventSocket.clientLoop, EventSocket.unmarshal_marshal hz hge.1 hb, List.append_nil]
      have hjl : j < s.distributed.length := by
        rcases Nat.lt_or_ge j s.distributed.length with h | h
        · exact h
        · rw [List.getElem?_eq_none h] at hj; simp at hj
      rw [List.take_add_one, hj, Option.toList_some, List.drop_append_of_le_length (by simp; omega), List.filterMap_append]
      congr 1
      have := dispatch_expected [e]
      simpa using this
    · left
      simp only [EventSocket.clientLoop, EventSocket.unmarshal_prefix hb (List.take_append_drop n b).symm h0 h1, List.append_nil]

/-! ## C64: ending the client -/

/-- C64 (partial: what was read ends with a whole line; `C64_violated`). When the context is cancelled, so that the connection is closed, after any number
of complete lines from the server, the handler has been called for these events and `MustRun` returns. -/
theorem C64_cancel_partial (env : EventSocket.Env) (zone : Int → Int) (hz : ∀ t, (zone t).natAbs < 1440) (hm : env.marshal = marshalEvent zone)
    (es : List FlowEvent) (hr : reasonable es) (hg : ∀ e ∈ es, (marshalEvent zone e).isSome) :
    mustRun ⟨EventSocket.text env es, .connClosed⟩ = (es.filterMap expected, .returns) := by
  have hc := clientLoop_lines hz env hm es (fun e he => by
    obtain ⟨b, hb⟩ := Option.isSome_iff_exists.mp (hg e he)
    exact ⟨(hr e he).1, b, hb, C54_fits zone e (hr e he).1 b hb (hr e he).2⟩) []
  rw [List.append_nil] at hc
  unfold mustRun scanErr
  simp only [hc]
  simp only [scanLines]
  simp [maxScanTokenSize, EventSocket.clientLoop]

/-- C64. If reading from the connection fails for any other reason after any number of complete lines, the handler has been called for these events and the
process ends with that error: it is not hidden as the closing of the connection is. -/
theorem C64_errors (env : EventSocket.Env) (zone : Int → Int) (hz : ∀ t, (zone t).natAbs < 1440) (hm : env.marshal = marshalEvent zone)
    (es : List FlowEvent) (hr : reasonable es) (hg : ∀ e ∈ es, (marshalEvent zone e).isSome) (fin : GoErr) (h1 : fin ≠ .eof) (h2 : fin ≠ .connClosed) :
    mustRun ⟨EventSocket.text env es, fin⟩ = (es.filterMap expected, .fatal fin) := by
  have hc := clientLoop_lines hz env hm es (fun e he => by
    obtain ⟨b, hb⟩ := Option.isSome_iff_exists.mp (hg e he)
    exact ⟨(hr e he).1, b, hb, C54_fits zone e (hr e he).1 b hb (hr e he).2⟩) []
  rw [List.append_nil] at hc
  unfold mustRun scanErr
  simp only [hc]
  simp only [scanLines]
  simp [maxScanTokenSize, EventSocket.clientLoop, h1, h2]

/-- C64, C54. A line that does not fit into the scanner's buffer (64 KiB without a newline), after any number of complete lines from the server: the handler has been called
for these events and for nothing else, and the process ends with that error, whatever follows and however the stream ends. -/
theorem C64_too_long (env : EventSocket.Env) (zone : Int → Int) (hz : ∀ t, (zone t).natAbs < 1440) (hm : env.marshal = marshalEvent zone)
    (es : List FlowEvent) (hr : reasonable es) (hg : ∀ e ∈ es, (marshalEvent zone e).isSome) (p rest : Bytes) (hp : 10 ∉ p) (hl : 65536 ≤ p.length) (fin : GoErr) :
    mustRun ⟨EventSocket.text env es ++ (p ++ rest), fin⟩ = (es.filterMap expected, .fatal .tooLong) := by
  have hc := clientLoop_lines hz env hm es (fun e he => by
    obtain ⟨b, hb⟩ := Option.isSome_iff_exists.mp (hg e he)
    exact ⟨(hr e he).1, b, hb, C54_fits zone e (hr e he).1 b hb (hr e he).2⟩) (p ++ rest)
  rw [scanLines_long p rest (fun x hx e => hp (e ▸ hx)) [] (by simpa [maxScanTokenSize] using hl)] at hc
  unfold mustRun scanErr
  simp only [hc]
  simp [EventSocket.clientLoop]

/-- A line of 64 KiB, after an event. -/
example : mustRun ⟨EventSocket.text ⟨marshalEvent (fun _ => 0), fun _ => false⟩ [EventSocket.flowDeleted 1600000001500000000 "a"] ++ (List.replicate 65536 120 ++ [10]), .connClosed⟩
    = ([.closed 1600000001500000000 "a"], .fatal .tooLong) := by
  rw [C64_too_long ⟨marshalEvent (fun _ => 0), fun _ => false⟩ (fun _ => 0) (by simp) rfl _ (by unfold reasonable evOk; decide +kernel) (by decide +kernel) (List.replicate 65536 120) [10]
    (fun h => absurd (List.eq_of_mem_replicate h) (by decide)) (by rw [List.length_replicate]; exact Nat.le_refl _) .connClosed]
  rfl

/-- C64 violated, in general: if part of a line (any part that is neither empty nor complete) has been read when the connection is closed because the
context is cancelled, that part is decoded as if it were a line, and the process ends. The same when the stream ends there. -/
theorem C64_violated_always (env : EventSocket.Env) (zone : Int → Int) (hz : ∀ t, (zone t).natAbs < 1440) (hm : env.marshal = marshalEvent zone)
    (es : List FlowEvent) (hr : reasonable es) (hg : ∀ e ∈ es, (marshalEvent zone e).isSome) (e : FlowEvent) (p q : Bytes)
    (he : marshalEvent zone e = some (p ++ q)) (hp : p ≠ []) (hq : q ≠ []) (hl : p.length < 65536) (fin : GoErr) :
    mustRun ⟨EventSocket.text env es ++ p, fin⟩ = (es.filterMap expected, .fatal .json) := by
  have hc := clientLoop_lines hz env hm es (fun e he => by
    obtain ⟨b, hb⟩ := Option.isSome_iff_exists.mp (hg e he)
    exact ⟨(hr e he).1, b, hb, C54_fits zone e (hr e he).1 b hb (hr e he).2⟩) p
  have hn : ∀ x ∈ p, noCtl x := fun x hx => EventSocket.marshal_noCtl he x (List.mem_append_left _ hx)
  have h10 : ∀ x ∈ p, x ≠ 10 := fun x hx e => absurd (e ▸ hn x hx : noCtl 10) (by unfold noCtl; decide)
  have hlast := scanLines_last p h10 [] (by simpa using hl)
  rw [List.nil_append, if_neg hp, dropCR_noCtl hn] at hlast
  have hu := EventSocket.unmarshal_prefix he rfl hp hq
  unfold mustRun
  simp only [hc, hlast, EventSocket.clientLoop, hu, List.append_nil, if_true]

/-- Two events: a connection opened and closed. -/
def exClientEvents : List FlowEvent :=
  [EventSocket.flowCreated 1600000000000000000 "host_\"1\"" ⟨80, 443, "1.2.3.4", "fe80::1", 7, -1⟩, ⟨5, 0, "", none⟩,
    EventSocket.flowDeleted 1600000001500000000 "host_\"1\""]
/-- The server's environment: UTC, nobody stalls. -/
def exClientEnv : EventSocket.Env := ⟨marshalEvent (fun _ => 0), fun _ => false⟩

-- the hypotheses hold for them
example : reasonable exClientEvents ∧ ∀ e ∈ exClientEvents, (marshalEvent (fun _ => 0) e).isSome := by
  constructor
  · intro e he
    simp only [exClientEvents, List.mem_cons, List.not_mem_nil, or_false] at he
    rcases he with rfl | rfl | rfl <;> exact ⟨by unfold evOk; decide +kernel, by decide +kernel⟩
  · decide +kernel
example : exClientEvents.filterMap expected =
    [.opened 1600000000000000000 "host_\"1\"" (some ⟨80, 443, "1.2.3.4", "fe80::1", 7, -1⟩), .closed 1600000001500000000 "host_\"1\""] := by decide +kernel
-- the second line of the three, as written and as decoded
example : marshalEvent (fun _ => 0) ⟨1, 1600000001500000000, "a", none⟩ =
    some (asc "{\"Event\":1,\"Timestamp\":\"2020-09-13T12:26:41.5Z\",\"UUID\":\"a\",\"ID\":null}") := by decide +kernel
-- a stream with an unknown type, unknown members and a carriage return
example : mustRun ⟨asc "{\"event\":1,\"X\":[],\"UUID\":\"a\"}\r\n{\"Event\":9}\n{}", .eof⟩ =
    ([.closed goZeroTime "a", .opened goZeroTime "" none], .returns) := by decide +kernel
-- a bad line, an over-long line, another error
example : mustRun ⟨asc "{}\n\n{}", .eof⟩ = ([.opened goZeroTime "" none], .fatal .json) := by decide +kernel
example : mustRun ⟨asc "{}\n", .read⟩ = ([.opened goZeroTime "" none], .fatal .read) := by decide +kernel

-- a run of the server: client 1 is there for all events, client 2 comes after the first; the write of the last event to client 1 fails in the middle
def exClientSchedule : List EventSocket.Choice :=
  [.accept 1, .serve, .produce, .notify, .notify, .notify, .write 1, .notify, .accept 2, .serve, .produce, .produce, .notify, .notify, .notify, .write 2,
    .write 1, .notify, .notify, .notify, .notify, .fail 1 20, .write 2, .notify]
example : (((EventSocket.init exClientEvents).exec exClientEnv exClientSchedule).map
      (fun s => ([s.regAt 1, s.regAt 2, s.failedAt 1, s.failedAt 2], mustRun ⟨s.delivered 2, .eof⟩))) =
    some ([some 0, some 1, some 2, none], ([.closed 1600000001500000000 "host_\"1\""], .returns)) := by decide +kernel
example : (((EventSocket.init exClientEvents).exec exClientEnv exClientSchedule).map (fun s => mustRun ⟨s.delivered 1, .eof⟩)) =
    some ([.opened 1600000000000000000 "host_\"1\"" (some ⟨80, 443, "1.2.3.4", "fe80::1", 7, -1⟩)], .fatal .json) := by decide +kernel

/-- C64 violated: the connection is closed, because the context is cancelled, in the middle of the line of a close event. -/
theorem C64_violated : ∃ b p q, marshalEvent (fun _ => 0) (EventSocket.flowDeleted 1600000001500000000 "a") = some b ∧ b = p ++ q
    ∧ mustRun ⟨p, .connClosed⟩ = ([], .fatal .json) :=
  ⟨asc "{\"Event\":1,\"Timestamp\":\"2020-09-13T12:26:41.5Z\",\"UUID\":\"a\",\"ID\":null}", asc "{\"Event\":1,\"Time",
    asc "stamp\":\"2020-09-13T12:26:41.5Z\",\"UUID\":\"a\",\"ID\":null}", by decide +kernel, by decide +kernel, by decide +kernel⟩

end TcpInfo
