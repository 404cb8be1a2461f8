import Verif.Lemmas.ByteReads
import Verif.Props.Memory
/-!
# C106: which bytes the goroutines share
-/

namespace TcpInfo
open Spec

/-- C106. The programs of `Model.ByteReads` account for all that is read: what they compute, and what they read, depends on no other byte. -/
theorem C106_depends {α : Type} (p : RProg α) (m m' : Mem) (h : ∀ a ∈ p.reads m, m' a = m a) : p.run m' = p.run m ∧ p.reads m' = p.reads m := run_local m m' p h

/-- C106. These programs are the functions of the rest of the model: comparing with a kept record, its counters, its state, making a record from a message,
its header, anonymizing it, and what is encoded. -/
theorem C106_programs (m0 : Mem) (h : Heap) (h0 : Heap.Steps (Heap.init m0) h) (msg msg' : PMessage) (hm : msg ∈ h.msgs) (hm' : msg' ∈ h.msgs)
    (ex : Option ExcludeConfig) (m1 m2 m : Mem) (p pm : PRecord) (hp : pMakeArchivalRecord m1 msg ex = .ok (some p))
    (hpm : pMakeArchivalRecord m2 msg' ex = .ok (some pm)) (t t' : Int) (anon : Anonymizer) :
    (rCompare pm p).run m = compareRecords (pm.load m t) (some (p.load m t'))
    ∧ (rGetStats p).run m = getStatsGo (p.load m t')
    ∧ (∃ idm, parseIDM (p.load m t').raw = .ok idm ∧ (rState p).run m = some idm.state)
    ∧ (rMakeArchivalRecord msg ex).run m = pMakeArchivalRecord m msg ex
    ∧ (rHeader p).run m = parseIDM (p.load m t').raw
    ∧ (rAnonymize anon p.raw).run m = anonymizeStores anon m p.raw
    ∧ (rMarshal p).run m = ((p.load m t').raw, (p.load m t').attrs.map (·.map (·.val))) := by
  have ok := steps_ok _ _ h0 (init_ok m0)
  have c1 := pMake_cap m1 msg (ok.inside msg hm).2 ex p hp
  have c2 := pMake_cap m2 msg' (ok.inside msg' hm').2 ex pm hpm
  have w := pMake_where _ _ _ _ hp
  refine ⟨run_compare m t t' pm p c2 c1, run_getStats m t' p, ?_, run_make m msg ex, ?_, run_anonymize m anon p.raw, ?_⟩
  · have hl : ¬ p.raw.len < 72 := by omega
    obtain ⟨idm, e, es, -⟩ := parseIDM_read m p.raw hl
    refine ⟨idm, e, ?_⟩
    unfold rState
    rw [if_neg hl, es]; rfl
  · unfold rHeader
    rw [run_bind, run_readSlice]; rfl
  · rw [run_marshal]
    simp only [ArchivalRecord.raw, ArchivalRecord.attrs, PRecord.load, Option.getD_some, List.map_map]
    congr 1
    exact List.map_congr_left (fun o _ => by cases o <;> rfl)

/-- C106, partial: for records whose tcp_info, if there is one, has at least the 168 bytes that `Compare` assumes. Of a record it has kept (`p`), and of a
new one when comparing (`pm`), the saver reads no byte that a marshaller stores when anonymizing any record (`q`), be it one of these two, whatever memory
contains at any of these moments. -/
theorem C106_kept_partial (m0 : Mem) (h : Heap) (h0 : Heap.Steps (Heap.init m0) h) (msg msg' msg'' : PMessage) (hm : msg ∈ h.msgs) (hm' : msg' ∈ h.msgs)
    (hm'' : msg'' ∈ h.msgs) (ex : Option ExcludeConfig) (m1 m2 m3 m m' : Mem) (p pm q : PRecord) (hp : pMakeArchivalRecord m1 msg ex = .ok (some p))
    (hpm : pMakeArchivalRecord m2 msg' ex = .ok (some pm)) (hq : pMakeArchivalRecord m3 msg'' ex = .ok (some q))
    (hi : ∀ s, p.attrs[2]? = some (some s) → 168 ≤ s.len) (hi' : ∀ s, pm.attrs[2]? = some (some s) → 168 ≤ s.len) (anon : Anonymizer) (a : Nat)
    (ha : a ∈ (rCompare pm p).reads m ∨ a ∈ (rGetStats p).reads m ∨ a ∈ (rState p).reads m) (v : UInt8) : (a, v) ∉ anonymizeStores anon m' q.raw := by
  intro hs
  have ok := steps_ok _ _ h0 (init_ok m0)
  have hw := anonymizeStores_where _ _ _ _ hs
  have w := pMake_where _ _ _ _ hp
  have w' := pMake_where _ _ _ _ hpm
  have w'' := pMake_where _ _ _ _ hq
  have apart : ∀ x ∈ h.msgs, x.data.base = msg''.data.base ∨ x.data.base + x.data.len ≤ msg''.data.base ∨ msg''.data.base + msg''.data.len ≤ x.data.base := by
    intro x hx
    by_cases hne : x = msg''
    · exact Or.inl (by rw [hne])
    · exact Or.inr (apart_of_ne ok hx hm'' hne)
  have d := apart msg hm
  have d' := apart msg' hm'
  have h1 : p.raw.base + 1 ≠ a := by omega
  have h2 : pm.raw.base + 1 ≠ a := by omega
  have h3 : ∀ s, some s ∈ p.attrs → ∀ x, s.base ≤ x → x < s.base + s.len → x ≠ a := by
    intro s hs x x1 x2
    obtain ⟨y1, y2⟩ := w.2.2.2 s hs
    omega
  have h4 : ∀ s, some s ∈ pm.attrs → ∀ x, s.base ≤ x → x < s.base + s.len → x ≠ a := by
    intro s hs x x1 x2
    obtain ⟨y1, y2⟩ := w'.2.2.2 s hs
    omega
  rcases ha with ha | ha | ha
  · exact only_compare m (· ≠ a) pm p h1 h2 hi hi' (fun s hs => hs.elim (h3 s) (h4 s)) a ha rfl
  · exact only_getStats m (· ≠ a) p h3 a ha rfl
  · exact only_state m (· ≠ a) p h1 a ha rfl

/-- C106. Everything else that a goroutine reads or stores lies in the message it is working on: when the saver makes a record from a new message, and reads
its header and its counters, and when a marshaller anonymizes and encodes it. No byte of it is stored by a marshaller that anonymizes another message. -/
theorem C106_message (m0 : Mem) (h : Heap) (h0 : Heap.Steps (Heap.init m0) h) (msg msg' : PMessage) (hm : msg ∈ h.msgs) (hm' : msg' ∈ h.msgs) (hne : msg ≠ msg')
    (ex : Option ExcludeConfig) (m1 m2 m m' : Mem) (p q : PRecord) (hp : pMakeArchivalRecord m1 msg ex = .ok (some p))
    (hq : pMakeArchivalRecord m2 msg' ex = .ok (some q)) (anon anon' : Anonymizer) (a : Nat)
    (ha : a ∈ (rMakeArchivalRecord msg ex).reads m ∨ a ∈ (rHeader p).reads m ∨ a ∈ (rGetStats p).reads m ∨ a ∈ (rAnonymize anon p.raw).reads m
      ∨ a ∈ (rMarshal p).reads m ∨ ∃ v, (a, v) ∈ anonymizeStores anon m p.raw) :
    (msg.data.base ≤ a ∧ a < msg.data.base + msg.data.len) ∧ ∀ v, (a, v) ∉ anonymizeStores anon' m' q.raw := by
  have ok := steps_ok _ _ h0 (init_ok m0)
  have w := pMake_where _ _ _ _ hp
  have w' := pMake_where _ _ _ _ hq
  have key : msg.data.base ≤ a ∧ a < msg.data.base + msg.data.len := by
    have h1 : ∀ x, p.raw.base ≤ x → x < p.raw.base + p.raw.len → msg.data.base ≤ x ∧ x < msg.data.base + msg.data.len := by intro x x1 x2; omega
    have h2 : ∀ s, some s ∈ p.attrs → ∀ x, s.base ≤ x → x < s.base + s.len → msg.data.base ≤ x ∧ x < msg.data.base + msg.data.len := by
      intro s hs x x1 x2
      obtain ⟨y1, y2⟩ := w.2.2.2 s hs
      omega
    let Q : Nat → Prop := fun x => msg.data.base ≤ x ∧ x < msg.data.base + msg.data.len
    rcases ha with ha | ha | ha | ha | ha | ⟨v, ha⟩
    · exact only_make m Q msg ex (fun x x1 x2 => ⟨x1, x2⟩) a ha
    · exact only_header m Q p h1 a ha
    · exact only_getStats m Q p h2 a ha
    · exact only_anonymize m Q anon p.raw h1 a ha
    · exact only_marshal m Q p h1 h2 a ha
    · have := anonymizeStores_where _ _ _ _ ha
      simp only at this
      omega
  refine ⟨key, fun v hs => ?_⟩
  have hw := anonymizeStores_where _ _ _ _ hs
  simp only at hw
  have := apart_of_ne ok hm hm' hne
  unfold Apart at this
  omega

/-! ### Examples -/

/-- The record made from the second message of `exMemData`. -/
def exMemRec' : PRecord := ⟨⟨1340, 72, 360⟩, [none, none, some ⟨1416, 232, 284⟩]⟩

-- two records with 232 bytes of tcp_info in one datagram; the saver compares one with the other while a marshaller anonymizes the kept one
example : Heap.Steps (Heap.init (fun _ => 0)) ⟨exMem1, [exMemBuf], [exMemMsg 0, exMemMsg 1]⟩ :=
  .tail (.refl _) (Heap.Step.receive (Heap.init (fun _ => 0)) exMemBuf exMemData [exMemMsg 0, exMemMsg 1] (by decide +kernel) (by decide)
    (by simp [Heap.init]) (by decide +kernel))
example : pMakeArchivalRecord exMem1 (exMemMsg 1) none = .ok (some exMemRec') := by decide +kernel
example : ((rCompare exMemRec' exMemRec).reads exMem1).length = 306
    ∧ (rGetStats exMemRec).reads exMem1 = [1292, 1293, 1294, 1295, 1296, 1297, 1298, 1299, 1220, 1221, 1222, 1223, 1224, 1225, 1226, 1227] := by decide +kernel
example : (rState exMemRec).reads exMem1 = [1017] ∧ exMemStores.map (·.1) = [1024, 1025, 1026, 1027, 1040, 1041, 1042, 1043] := by decide +kernel

/-- A datagram in which a message with only 100 bytes of tcp_info comes before another one. -/
def oldData (x : UInt8) : Bytes :=
  nlWire [(⟨20, 2, 7, 9, (((exMsg 1 5 6).map (·.data)).getD []).take 72 ++ le 2 104 ++ le 2 2 ++ List.replicate 100 x⟩, []),
    (⟨20, 2, 7, 9, ((exMsg 2 5 6).map (·.data)).getD []⟩, [])]
/-- The buffers of two such datagrams, received one after the other. -/
def oldBuf (k : Nat) : PSlice := ⟨1000 + 1000 * k, 516, 600⟩
/-- Memory after the first one. -/
def oldMem1 : Mem := Mem.store (fun _ => 0) 1000 (oldData 0)
/-- Their messages. -/
def oldMsg (k : Nat) : PMessage := ⟨⟨192, 20, 2, 7, 9⟩, ⟨1016 + 1000 * k, 176, 584⟩⟩
def nextMsg (k : Nat) : PMessage := ⟨⟨324, 20, 2, 7, 9⟩, ⟨1208 + 1000 * k, 308, 392⟩⟩
/-- The records made from them. -/
def oldRec (k : Nat) : PRecord := ⟨⟨1016 + 1000 * k, 72, 584⟩, [none, none, some ⟨1092 + 1000 * k, 100, 508⟩]⟩
def nextRec (k : Nat) : PRecord := ⟨⟨1208 + 1000 * k, 72, 392⟩, [none, none, some ⟨1284 + 1000 * k, 232, 316⟩]⟩

/-- C106 violated: with a tcp_info of 100 bytes, as old kernels send it, `Compare` reads on behind it, and there is the header of the next message of the
datagram, whose addresses a marshaller may be overwriting at that time. -/
theorem C106_violated : ∃ (m0 : Mem) (h : Heap) (msg msg' msg'' : PMessage) (p pm q : PRecord) (anon : Anonymizer) (a : Nat) (v : UInt8),
    Heap.Steps (Heap.init m0) h ∧ msg ∈ h.msgs ∧ msg' ∈ h.msgs ∧ msg'' ∈ h.msgs ∧ msg ≠ msg'' ∧ msg' ≠ msg''
    ∧ pMakeArchivalRecord h.mem msg none = .ok (some p) ∧ pMakeArchivalRecord h.mem msg' none = .ok (some pm) ∧ pMakeArchivalRecord h.mem msg'' none = .ok (some q)
    ∧ a ∈ (rCompare pm p).reads h.mem ∧ (a, v) ∈ anonymizeStores anon h.mem q.raw := by
  have s1 : Heap.Step (Heap.init (fun _ => 0)) ⟨oldMem1, [oldBuf 0], [oldMsg 0, nextMsg 0]⟩ :=
    Heap.Step.receive (Heap.init (fun _ => 0)) (oldBuf 0) (oldData 0) [oldMsg 0, nextMsg 0] (by decide +kernel) (by decide) (by simp [Heap.init])
      (by decide +kernel)
  have s2 :=
    Heap.Step.receive ⟨oldMem1, [oldBuf 0], [oldMsg 0, nextMsg 0]⟩ (oldBuf 1) (oldData 0) [oldMsg 1, nextMsg 1] (by decide +kernel) (by decide)
      (by simp [PSlice.disjoint, oldBuf]) (by decide +kernel)
  exact ⟨fun _ => 0, _, oldMsg 0, oldMsg 1, nextMsg 0, oldRec 0, oldRec 1, nextRec 0, exMemAnon, 1216, 10, .tail (.tail (.refl _) s1) s2,
    by simp, by simp, by simp, by decide, by decide, by decide +kernel, by decide +kernel, by decide +kernel, by decide +kernel, by decide +kernel⟩

end TcpInfo
