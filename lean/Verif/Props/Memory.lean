import Verif.Lemmas.Memory
import Verif.Lemmas.RouteAttr
import Verif.Spec.Memory
import Verif.Props.SaverRuns
import Verif.Props.Crash
/-!
# C87: in-place anonymization alters nothing but addresses; C88: messages of a datagram
-/

namespace TcpInfo
open Spec

/-! ## C88 -/

theorem block_fields (p : NlMsg) (pad rest : Bytes) (hg : GoodMsg (p, pad)) : parseNlMsghdr (p.block pad ++ rest) = p.header := by
  have e : ∀ n v, (le n v).length = n := le_length
  have h16 : ∀ v : UInt16, UInt16.ofNat (leNat (le 2 v.toNat)) = v := by
    intro v
    rw [leNat_le]
    have := v.toNat_lt
    rw [Nat.mod_eq_of_lt (by omega)]; simp
  have h32 : ∀ v : UInt32, UInt32.ofNat (leNat (le 4 v.toNat)) = v := by
    intro v
    rw [leNat_le]
    have := v.toNat_lt
    rw [Nat.mod_eq_of_lt (by omega)]; simp
  have hl : leNat (le 4 (p.data.length + 16)) = p.data.length + 16 := by
    rw [leNat_le]
    have := hg.1
    simp only at this
    exact Nat.mod_eq_of_lt (by omega)
  simp only [parseNlMsghdr, NlMsg.block, u32At, u16At, List.append_assoc, NlMsg.header, NlMsghdr.mk.injEq]
  refine ⟨?_, ?_, ?_, ?_, ?_⟩
  · rw [sub_append_here _ _ _ (by simp), hl]
  · rw [sub_append_skip _ _ _ _ (by simp), e, sub_append_here _ _ _ (by simp), h16]
  · rw [sub_append_skip _ _ _ _ (by simp), e, sub_append_skip _ _ _ _ (by simp), e, sub_append_here _ _ _ (by simp), h16]
  · rw [sub_append_skip _ _ _ _ (by simp), e, sub_append_skip _ _ _ _ (by simp), e, sub_append_skip _ _ _ _ (by simp), e,
      sub_append_here _ _ _ (by simp), h32]
  · rw [sub_append_skip _ _ _ _ (by simp), e, sub_append_skip _ _ _ _ (by simp), e, sub_append_skip _ _ _ _ (by simp), e,
      sub_append_skip _ _ _ _ (by simp), e, sub_append_here _ _ _ (by simp), h32]

theorem header_len (p : NlMsg) (pad : Bytes) (hg : GoodMsg (p, pad)) : p.header.len.toNat = p.data.length + 16 := by
  have := hg.1
  simp only at this
  show (UInt32.ofNat (p.data.length + 16)).toNat = _
  rw [UInt32.toNat_ofNat']
  exact Nat.mod_eq_of_lt (by omega)

theorem block_length (p : NlMsg) (pad : Bytes) : (p.block pad).length = 16 + p.data.length + pad.length := by
  simp [NlMsg.block]; omega

theorem block_align (p : NlMsg) (pad : Bytes) (hg : GoodMsg (p, pad)) : nlmAlignOf (p.data.length + 16) = 16 + p.data.length + pad.length := by
  obtain ⟨_, h1, h2⟩ := hg
  simp only at h1 h2
  unfold nlmAlignOf
  omega

/-- One iteration on a message. -/
theorem parseNetlink_block (m : Mem) (fuel : Nat) (b : PSlice) (p : NlMsg) (pad rest : Bytes) (hg : GoodMsg (p, pad)) (hb : b.read m = p.block pad ++ rest) :
    ∃ q : PMessage, q.header = p.header ∧ q.data.read m = p.data ∧ (b.after (16 + p.data.length + pad.length)).read m = rest
      ∧ parseNetlinkLoop m (fuel + 1) b = addMessages [q] (parseNetlinkLoop m fuel (b.after (16 + p.data.length + pad.length))) := by
  have hlen : b.len = 16 + p.data.length + pad.length + rest.length := by
    rw [← read_length m b, hb, List.length_append, block_length]
  refine ⟨⟨p.header, (b.after 16).upto p.data.length⟩, rfl, ?_, ?_, ?_⟩
  · show ((b.after 16).upto p.data.length).read m = p.data
    rw [read_upto _ _ _ (by simp only [PSlice.after]; omega), read_after, hb]
    have : p.block pad ++ rest = (le 4 (p.data.length + 16) ++ le 2 p.type.toNat ++ le 2 p.flags.toNat ++ le 4 p.seq.toNat ++ le 4 p.pid.toNat)
        ++ (p.data ++ (pad ++ rest)) := by simp only [NlMsg.block, List.append_assoc]
    rw [this, List.drop_left' (by simp), List.take_left' rfl]
  · rw [read_after, hb, List.drop_left' (block_length p pad)]
  · have h1 : ¬ b.len < 16 := by omega
    simp only [parseNetlinkLoop]
    rw [if_neg h1, hb, block_fields p pad rest hg, header_len p pad hg, block_align p pad hg, if_neg (by omega), Nat.add_sub_cancel]

theorem parseNetlink_blocks (m : Mem) (l : List (NlMsg × Bytes)) (hg : ∀ q ∈ l, GoodMsg q) : ∀ (fuel : Nat) (b : PSlice) (rest : Bytes),
    b.read m = nlWire l ++ rest → ∃ (ps : List PMessage) (b' : PSlice), ps.map (fun p => (p.header, p.data.read m)) = l.map (fun q => (q.1.header, q.1.data))
      ∧ b'.read m = rest ∧ parseNetlinkLoop m (fuel + l.length) b = addMessages ps (parseNetlinkLoop m fuel b') := by
  induction l with
  | nil =>
    intro fuel b rest hb
    refine ⟨[], b, rfl, hb, ?_⟩
    show parseNetlinkLoop m fuel b = _
    cases parseNetlinkLoop m fuel b with
    | none => rfl
    | some r => cases r <;> rfl
  | cons x l ih =>
    intro fuel b rest hb
    obtain ⟨p, pad⟩ := x
    obtain ⟨q, h1, h2, h3, h4⟩ := parseNetlink_block m (fuel + l.length) b p pad (nlWire l ++ rest) (hg _ (by simp))
      (by rw [hb]; simp only [nlWire, List.append_assoc])
    obtain ⟨ps, b', i1, i2, i3⟩ := ih (fun q hq => hg q (by simp [hq])) fuel _ rest h3
    refine ⟨q :: ps, b', by simp only [List.map_cons, h1, h2, i1], i2, ?_⟩
    show parseNetlinkLoop m (fuel + l.length + 1) b = _
    rw [h4, i3]
    cases parseNetlinkLoop m fuel b' with
    | none => rfl
    | some r => cases r <;> rfl

theorem nlWire_length (l : List (NlMsg × Bytes)) : 16 * l.length ≤ (nlWire l).length := by
  induction l with
  | nil => simp [nlWire]
  | cons x l ih =>
    obtain ⟨p, pad⟩ := x
    simp only [nlWire, List.length_append, block_length, List.length_cons]
    omega

theorem parse_split (m : Mem) (b : PSlice) (l : List (NlMsg × Bytes)) (hg : ∀ q ∈ l, GoodMsg q) (rest : Bytes) (hb : b.read m = nlWire l ++ rest) :
    ∃ (k : Nat) (ps : List PMessage) (b' : PSlice), ps.map (fun p => (p.header, p.data.read m)) = l.map (fun q => (q.1.header, q.1.data))
      ∧ b'.read m = rest ∧ parseNetlinkMessage m b = addMessages ps (parseNetlinkLoop m (k + 1) b') := by
  have h1 : b.len = (nlWire l).length + rest.length := by rw [← read_length m b, hb, List.length_append]
  have h2 := nlWire_length l
  obtain ⟨ps, b', i1, i2, i3⟩ := parseNetlink_blocks m l hg (b.len / 16 - l.length + 1) b rest hb
  refine ⟨b.len / 16 - l.length, ps, b', i1, i2, ?_⟩
  rw [← i3, parseNetlinkMessage]
  congr 1
  omega

/-- C88. Every message of a datagram is delivered, in order, with its header and its data; fewer than 16 bytes behind the last one are ignored. -/
theorem C88_roundtrip (m : Mem) (b : PSlice) (l : List (NlMsg × Bytes)) (hg : ∀ q ∈ l, GoodMsg q) (rest : Bytes) (hr : rest.length < 16)
    (hb : b.read m = nlWire l ++ rest) :
    ∃ ps, parseNetlinkMessage m b = some (.ok ps) ∧ ps.map (fun p => (p.header, p.data.read m)) = l.map (fun q => (q.1.header, q.1.data)) := by
  obtain ⟨k, ps, b', h1, h2, h3⟩ := parse_split m b l hg rest hb
  have h4 : b'.len < 16 := by rw [← read_length m b', h2]; exact hr
  refine ⟨ps, ?_, h1⟩
  rw [h3]
  simp only [parseNetlinkLoop, if_pos h4, addMessages, List.append_nil]

theorem u32At_lt (off : Nat) (b : Bytes) : (u32At off b).toNat < 2 ^ 32 := (u32At off b).toNat_lt

/-- Every datagram is a sequence of messages followed by a rest on which the loop stops at once. -/
theorem nl_decompose (n : Nat) (b : Bytes) (hn : b.length ≤ n) : ∃ (l : List (NlMsg × Bytes)) (rest : Bytes), b = nlWire l ++ rest
    ∧ (∀ p ∈ l, GoodMsg p)
    ∧ (rest.length < 16 ∨ (16 ≤ rest.length ∧ ((u32At 0 rest).toNat < 16 ∨ nlmAlignOf (u32At 0 rest).toNat > rest.length))) := by
  induction n generalizing b with
  | zero => exact ⟨[], b, by simp [nlWire], by simp, Or.inl (by omega)⟩
  | succ n ih =>
    by_cases h4 : b.length < 16
    · exact ⟨[], b, by simp [nlWire], by simp, Or.inl h4⟩
    · by_cases hb : (u32At 0 b).toNat < 16 ∨ nlmAlignOf (u32At 0 b).toNat > b.length
      · exact ⟨[], b, by simp [nlWire], by simp, Or.inr ⟨by omega, by omega⟩⟩
      · have hal : (u32At 0 b).toNat ≤ nlmAlignOf (u32At 0 b).toNat ∧ nlmAlignOf (u32At 0 b).toNat < (u32At 0 b).toNat + 4
            ∧ nlmAlignOf (u32At 0 b).toNat % 4 = 0 := by unfold nlmAlignOf; omega
        have hL16 := u32At_lt 0 b
        generalize hA : nlmAlignOf (u32At 0 b).toNat = A at *
        generalize hL : (u32At 0 b).toNat = L at *
        obtain ⟨l, rest, e, hg, hr⟩ := ih (b.drop A) (by simp; omega)
        let a : NlMsg := { type := u16At 4 b, flags := u16At 6 b, seq := u32At 8 b, pid := u32At 12 b, data := sub 16 (L - 16) b }
        let pad := sub L (A - L) b
        have hv : a.data.length = L - 16 := sub_length _ _ _ (by omega)
        have hp : pad.length = A - L := sub_length _ _ _ (by omega)
        refine ⟨(a, pad) :: l, rest, ?_, ?_, hr⟩
        · simp only [nlWire, List.append_assoc]
          rw [← e]
          have hblk : a.block pad = b.take A := by
            have e1 : le 4 (a.data.length + 16) = sub 0 4 b := by
              rw [hv, show L - 16 + 16 = L by omega, ← hL]
              exact le_u32 _ (sub_length _ _ _ (by omega))
            have e2 : le 2 a.type.toNat = sub 4 2 b := le_u16 _ (sub_length _ _ _ (by omega))
            have e3 : le 2 a.flags.toNat = sub 6 2 b := le_u16 _ (sub_length _ _ _ (by omega))
            have e4 : le 4 a.seq.toNat = sub 8 4 b := le_u32 _ (sub_length _ _ _ (by omega))
            have e5 : le 4 a.pid.toNat = sub 12 4 b := le_u32 _ (sub_length _ _ _ (by omega))
            rw [NlMsg.block, e1, e2, e3, e4, e5]
            have h0 : sub 0 4 b = b.take 4 := by simp [sub]
            rw [h0, take_append_sub, take_append_sub 6 2, take_append_sub 8 4, take_append_sub 12 4]
            show b.take (12 + 4) ++ sub 16 (L - 16) b ++ sub L (A - L) b = _
            rw [take_append_sub, show 12 + 4 + (L - 16) = L by omega, take_append_sub,
              show L + (A - L) = A by omega]
          rw [hblk, List.take_append_drop]
        · intro p hpm
          rcases List.mem_cons.1 hpm with rfl | hpm
          · refine ⟨by simp only [hv]; omega, ?_, ?_⟩
            · simp only [hp]; omega
            · simp only [hp, hv]; omega
          · exact hg p hpm

/-- What the parser does with a datagram, whatever it contains: it always comes to an end; either the datagram consists of messages and fewer than 16
further bytes, or the call fails. -/
theorem C88_sound (m : Mem) (b : PSlice) : ∃ (l : List (NlMsg × Bytes)) (rest : Bytes), b.read m = nlWire l ++ rest ∧ (∀ q ∈ l, GoodMsg q)
    ∧ ((rest.length < 16 ∧ ∃ ps, parseNetlinkMessage m b = some (.ok ps)
          ∧ ps.map (fun p => (p.header, p.data.read m)) = l.map (fun q => (q.1.header, q.1.data)))
      ∨ (16 ≤ rest.length ∧ parseNetlinkMessage m b = some (.err .einval))) := by
  obtain ⟨l, rest, e, hg, h | ⟨h1, h2⟩⟩ := nl_decompose (b.read m).length (b.read m) (Nat.le_refl _)
  · exact ⟨l, rest, e, hg, Or.inl ⟨h, C88_roundtrip m b l hg rest h e⟩⟩
  · refine ⟨l, rest, e, hg, Or.inr ⟨h1, ?_⟩⟩
    obtain ⟨k, ps, b', i1, i2, i3⟩ := parse_split m b l hg rest e
    have h4 : b'.len = rest.length := by rw [← read_length m b', i2]
    have h5 : (parseNlMsghdr (b'.read m)).len = u32At 0 rest := by rw [i2]; rfl
    rw [i3]
    simp only [parseNetlinkLoop]
    rw [if_neg (by omega), h5, if_pos (by omega)]
    rfl

/-- Two messages, the second one with padding, and three stray bytes. -/
def exDatagram : List (NlMsg × Bytes) := [(⟨20, 2, 7, 9, [1, 2, 3, 4]⟩, []), (⟨3, 2, 7, 9, [5, 6]⟩, [0xaa, 0xbb])]
example : (∀ q ∈ exDatagram, GoodMsg q) ∧ nlWire exDatagram ++ [1, 2, 3] ≠ [] := by
  constructor
  · simp [exDatagram, GoodMsg]
  · decide
example : (parseNetlinkMessage (Mem.store (fun _ => 0) 100 (nlWire exDatagram ++ [1, 2, 3])) ⟨100, 43, 64⟩)
    = some (.ok [⟨⟨20, 20, 2, 7, 9⟩, ⟨116, 4, 48⟩⟩, ⟨⟨18, 3, 2, 7, 9⟩, ⟨136, 2, 28⟩⟩]) := by decide +kernel
-- a length that exceeds what is there: everything is lost
example : (parseNetlinkMessage (Mem.store (fun _ => 0) 100 (nlWire exDatagram ++ (le 4 17 ++ List.replicate 12 0))) ⟨100, 56, 64⟩) = some (.err .einval) := by
  decide +kernel

/-! ## C87 -/

/-- C87. As a value, the record made from a message in memory is the one that `MakeArchivalRecord` makes in the rest of this model. -/
theorem C87_value (m : Mem) (msg : PMessage) (hc : msg.data.len ≤ msg.data.cap) (ex : Option ExcludeConfig) :
    (pMakeArchivalRecord m msg ex).mapVal (Option.map (PRecord.load m 0)) = makeArchivalRecord (msg.load m) ex := by
  unfold pMakeArchivalRecord makeArchivalRecord splitInetDiagMsg
  have e1 : (msg.load m).header = msg.header := rfl
  have e2 : (msg.load m).data = msg.data.read m := rfl
  have e3 : (msg.load m).spare = msg.data.spare m := rfl
  rw [e1, e2, e3, align72, read_length]
  by_cases ht : msg.header.type ≠ 20
  · rw [if_pos ht, if_pos ht]; rfl
  · rw [if_neg ht, if_neg ht]
    by_cases hl : msg.data.len < 72
    · rw [if_pos hl, if_pos hl]; rfl
    · rw [if_neg hl, if_neg hl]
      have hm := pMakeRecord_load m (msg.data.upto 72) (msg.data.after 72) (by simp only [PSlice.after]; omega)
      rw [read_upto _ _ _ (by omega), read_after, spare_after _ _ _ (by omega)] at hm
      cases ex with
      | none => exact hm
      | some ex =>
        simp only
        rw [read_upto _ _ _ (by omega)]
        cases parseIDM ((msg.data.read m).take 72) with
        | err e => rfl
        | panic => rfl
        | ok idm =>
          simp only
          split
          · rfl
          · exact hm

theorem reread (h h' : Heap) (ok : h.OK) (hs : Heap.Steps h h') (msg : PMessage) (hm : msg ∈ h.msgs) (ex : Option ExcludeConfig) (p : PRecord)
    (hp : pMakeArchivalRecord h.mem msg ex = .ok (some p)) (t : Int) : SameButAddresses (p.load h'.mem t) (p.load h.mem t) := by
  obtain ⟨w1, w2, w3, w4⟩ := pMake_where _ _ _ _ hp
  have keep := steps_keeps h h' ok hs msg hm
  refine ⟨rfl, rfl, ?_, ?_⟩
  · show SameHeader (p.raw.read h'.mem) (p.raw.read h.mem)
    simp only [PSlice.read, w2, w3]
    refine ⟨by rw [bytes_length, bytes_length], ?_, ?_⟩
    · rw [bytes_take _ _ _ _ (by omega), bytes_take _ _ _ _ (by omega)]
      exact bytes_congr _ _ _ _ (fun x h1 h2 => keep x h1 (by omega) (by omega))
    · rw [bytes_drop, bytes_drop]
      exact bytes_congr _ _ _ _ (fun x h1 h2 => keep x (by omega) (by omega) (by omega))
  · show (p.attrs.map (·.map (·.load h'.mem))).map (·.map (·.val)) = (p.attrs.map (·.map (·.load h.mem))).map (·.map (·.val))
    rw [List.map_map, List.map_map]
    refine List.map_congr_left (fun o ho => ?_)
    cases o with
    | none => rfl
    | some s =>
      obtain ⟨a1, a2⟩ := w4 s ho
      exact congrArg some (bytes_congr _ _ _ _ (fun x h1 h2 => keep x (by omega) (by omega) (by omega)))

/-- C87. Whatever is received and whichever headers are anonymized, completely or in part, after a record has been made: what the saver sees when it reads the
record again is the record itself, except for its addresses. -/
theorem C87_reread (m0 : Mem) (h h' : Heap) (h0 : Heap.Steps (Heap.init m0) h) (hs : Heap.Steps h h') (msg : PMessage) (hm : msg ∈ h.msgs)
    (ex : Option ExcludeConfig) (p : PRecord) (hp : pMakeArchivalRecord h.mem msg ex = .ok (some p)) (t : Int) :
    SameButAddresses (p.load h'.mem t) (p.load h.mem t) :=
  reread h h' (steps_ok _ _ h0 (init_ok m0)) hs msg hm ex p hp t

/-- C87. Anonymizing the header of one message alters no byte of any other one. -/
theorem C87_isolated (m0 : Mem) (h : Heap) (h0 : Heap.Steps (Heap.init m0) h) (msg msg' : PMessage) (hm : msg ∈ h.msgs) (hm' : msg' ∈ h.msgs)
    (hne : msg ≠ msg') (ex : Option ExcludeConfig) (m' m'' : Mem) (p : PRecord) (hp : pMakeArchivalRecord m' msg' ex = .ok (some p)) (anon : Anonymizer) :
    msg.data.read (h.mem.stores (anonymizeStores anon m'' p.raw)) = msg.data.read h.mem := by
  have ok := steps_ok _ _ h0 (init_ok m0)
  have ha := apart_of_ne ok hm hm' hne
  obtain ⟨w1, w2, w3, _⟩ := pMake_where _ _ _ _ hp
  unfold Apart at ha
  refine bytes_congr _ _ _ _ (fun x h1 h2 => stores_other _ _ _ (fun q hq => ?_))
  have := anonymizeStores_where _ _ _ _ hq
  omega

theorem stores_append (m : Mem) (l l' : List (Nat × UInt8)) : m.stores (l ++ l') = (m.stores l).stores l' := by
  induction l generalizing m with
  | nil => rfl
  | cons q l ih => exact ih _

theorem stores_at (m : Mem) (a : Nat) (vs : Bytes) (x : Nat) : m.stores (storesAt a vs) x = if a ≤ x ∧ x < a + vs.length then vs.getD (x - a) 0 else m x := by
  have key : ∀ n, n ≤ vs.length → m.stores ((List.range n).map (fun i => (a + i, vs.getD i 0))) x
      = if a ≤ x ∧ x < a + n then vs.getD (x - a) 0 else m x := by
    intro n
    induction n with
    | zero => intro _; rw [if_neg (by omega)]; rfl
    | succ n ih =>
      intro hn
      rw [List.range_succ, List.map_append, stores_append]
      show (if x = a + n then vs.getD n 0 else m.stores ((List.range n).map _) x) = _
      by_cases hx : x = a + n
      · rw [if_pos hx, if_pos (by omega), hx, Nat.add_sub_cancel_left]
      · rw [if_neg hx, ih (by omega)]
        by_cases h2 : a ≤ x ∧ x < a + n
        · rw [if_pos h2, if_pos (by omega)]
        · rw [if_neg h2, if_neg (by omega)]
  exact key _ (Nat.le_refl _)

/-- Reading a slice after storing bytes inside it. -/
theorem read_storesAt (m : Mem) (s : PSlice) (off : Nat) (vs : Bytes) (h : off + vs.length ≤ s.len) :
    s.read (m.stores (storesAt (s.base + off) vs)) = splice (s.read m) off vs := by
  apply List.ext_getElem?
  intro i
  have hl : (s.read m).length = s.len := read_length m s
  simp only [splice, PSlice.read, bytes_getElem?, stores_at]
  rw [List.append_assoc, bytes_take _ _ _ _ (by omega), bytes_drop]
  by_cases h1 : i < off
  · rw [if_pos (by omega), if_neg (by omega), List.getElem?_append_left (by rw [bytes_length]; omega), bytes_getElem?, if_pos h1]
  · rw [List.getElem?_append_right (by rw [bytes_length]; omega), bytes_length]
    by_cases h2 : i < off + vs.length
    · rw [if_pos (by omega), if_pos (by omega), List.getElem?_append_left (by omega), List.getD_eq_getElem?_getD,
        show s.base + i - (s.base + off) = i - off by omega, List.getElem?_eq_getElem (by omega)]
      rfl
    · rw [List.getElem?_append_right (by omega), bytes_getElem?]
      by_cases h3 : i < s.len
      · rw [if_pos h3, if_neg (by omega), if_pos (by omega)]
        congr 2
        omega
      · rw [if_neg h3, if_neg (by omega)]

/-- C87. After all stores of `Anonymize` the header has the contents that `anonymizeRaw` (on which C05 and the model of the marshallers rest) computes. -/
theorem C87_anonymized (anon : Anonymizer) (m : Mem) (raw : PSlice) (h : 40 ≤ raw.len) :
    raw.read (m.stores (anonymizeStores anon m raw)) = (anonymizeRaw anon (raw.read m)).2 := by
  have two : ∀ n, n ≤ 16 → raw.read (m.stores (storesAt (raw.base + 8) (anon.f (m.bytes (raw.base + 8) n))
      ++ storesAt (raw.base + 24) (anon.f (m.bytes (raw.base + 24) n))))
      = splice (splice (raw.read m) 8 (anon.f (sub 8 n (raw.read m)))) 24 (anon.f (sub 24 n (splice (raw.read m) 8 (anon.f (sub 8 n (raw.read m)))))) := by
    intro n hn
    have l1 : (anon.f (m.bytes (raw.base + 8) n)).length = n := by rw [anon.len, bytes_length]
    have l2 : (anon.f (m.bytes (raw.base + 24) n)).length = n := by rw [anon.len, bytes_length]
    have e1 : splice (raw.read m) 8 (anon.f (sub 8 n (raw.read m))) = raw.read (m.stores (storesAt (raw.base + 8) (anon.f (m.bytes (raw.base + 8) n)))) := by
      rw [read_storesAt _ _ _ _ (by omega), sub_read _ _ _ _ (by omega)]
    have e2 : (m.stores (storesAt (raw.base + 8) (anon.f (m.bytes (raw.base + 8) n)))).bytes (raw.base + 24) n = m.bytes (raw.base + 24) n :=
      bytes_congr _ _ _ _ (fun x h1 h2 => stores_other _ _ _ (fun q hq => by have := mem_storesAt _ _ _ hq; omega))
    rw [stores_append, e1, sub_read _ _ _ _ (by omega), e2, read_storesAt _ _ _ _ (by omega)]
  unfold anonymizeStores anonymizeRaw
  cases parseIDM (raw.read m) with
  | err e => rfl
  | panic => rfl
  | ok msg =>
    simp only
    split
    · exact two 16 (by omega)
    · split
      · exact two 4 (by omega)
      · rfl

theorem run_steps (H : Nat → Heap) (hr : MemoryRun H) (i k : Nat) : Heap.Steps (H i) (H (i + k)) := by
  induction k with
  | zero => exact .refl _
  | succ k ih =>
    rcases hr.step (i + k) with h | h
    · exact .tail ih h
    · rw [show i + (k + 1) = i + k + 1 by omega, h]; exact ih

/-- C87. If the saver reads memory, then what it sees of the records it keeps satisfies the assumption made about it everywhere else. -/
theorem C87_view (H : Nat → Heap) (hr : MemoryRun H) (env : Env) (h : ReadsMemory H env) : ViewOK env := by
  intro n r
  rcases h n r with h | ⟨i, j, msg, p, t, hij, hm, hp, h1, h2⟩
  · rw [h]; exact ⟨rfl, rfl, ⟨rfl, rfl, rfl⟩, rfl⟩
  · rw [h2, h1]
    obtain ⟨m0, h0⟩ := hr.start
    have s0 := run_steps H hr 0 i
    rw [Nat.zero_add, h0] at s0
    have s1 := run_steps H hr i (j - i)
    rw [show i + (j - i) = j by omega] at s1
    exact C87_reread m0 _ _ s0 s1 msg hm env.exclude p hp t

/-- C40 (partial, as `C40_decisions_partial`). The run of the saver does not depend on what the marshallers do to the memory they share with it. -/
theorem C40_memory_partial (H : Nat → Heap) (hr : MemoryRun H) (env : Env) (h : ReadsMemory H env) (bs : List MessageBlock)
    (hb : ∀ b ∈ bs, AllInfoOK env.exclude b) : runSaver env bs = runSaver env.still bs :=
  C40_decisions_partial env (C87_view H hr env h) bs hb

/-- C87. Nor does the memory behind attributes of kept records move. -/
theorem C87_room (H : Nat → Heap) (env : Env) (h : ReadsMemory H env) : KeepsRoom env := by
  intro n r
  rcases h n r with h | ⟨i, j, msg, p, t, hij, hm, hp, h1, h2⟩
  · rw [h]
  · rw [h2, h1]
    simp only [PRecord.load, Option.getD_some, List.map_map]
    refine List.map_congr_left (fun o _ => ?_)
    cases o with
    | none => rfl
    | some s => simp [PSlice.load, PSlice.read, PSlice.spare, bytes_length]

/-- C44. Exactly when the saver crashes if it shares memory with marshallers that anonymize records in place: `C44_crash_iff` without assumptions about
what it sees. -/
theorem C44_memory_iff (H : Nat → Heap) (hr : MemoryRun H) (env : Env) (h : ReadsMemory H env) (bs : List MessageBlock) :
    runSaver env bs = none
      ↔ (∃ b ∈ bs, ∃ m, some m ∈ b.v4Messages ++ b.v6Messages ∧ TornMessage env.exclude m)
        ∨ ∃ h c t, history env.exclude bs = h ++ c :: t ∧ CrashAt env.marshallers h c :=
  C44_crash_iff env (C87_view H hr env h) (C87_room H env h) bs

/-! ### A history in which a cached record is being anonymized while the saver runs -/

/-- The datagram of two connections with tcp_info. -/
def exMemData : Bytes :=
  nlWire [(⟨20, 2, 7, 9, ((exMsg 1 5 6).map (·.data)).getD []⟩, []), (⟨20, 2, 7, 9, ((exMsg 2 5 6).map (·.data)).getD []⟩, [])]
/-- Its buffer. -/
def exMemBuf : PSlice := ⟨1000, 648, 700⟩
/-- Memory when it has been received. -/
def exMem1 : Mem := Mem.store (fun _ => 0) 1000 exMemData
/-- The messages in it. -/
def exMemMsg (k : Nat) : PMessage := ⟨⟨324, 20, 2, 7, 9⟩, ⟨1016 + 324 * k, 308, 684 - 324 * k⟩⟩
/-- The record made from the first one. -/
def exMemRec : PRecord := ⟨⟨1016, 72, 684⟩, [none, none, some ⟨1092, 232, 608⟩]⟩
/-- The anonymizer that clears the last byte. -/
def exMemAnon : Anonymizer := ⟨fun b => b.take (b.length - 1) ++ List.replicate (min 1 b.length) 0, by intro b; simp; omega⟩
/-- The stores of `Anonymize` for it. -/
def exMemStores : List (Nat × UInt8) := anonymizeStores exMemAnon exMem1 exMemRec.raw
/-- A history: a datagram is received, then one store after the other is made. -/
def storeRun (m0 m1 : Mem) (bufs : List PSlice) (msgs : List PMessage) (l : List (Nat × UInt8)) : Nat → Heap
  | 0 => Heap.init m0
  | n + 1 => ⟨m1.stores (l.take n), bufs, msgs⟩
/-- That of the example. -/
def exMemRun : Nat → Heap := storeRun (fun _ => 0) exMem1 [exMemBuf] [exMemMsg 0, exMemMsg 1] exMemStores

theorem storeRun_run (m0 m1 : Mem) (bufs : List PSlice) (msgs : List PMessage) (l : List (Nat × UInt8)) (h1 : Heap.Step (Heap.init m0) ⟨m1, bufs, msgs⟩)
    (msg : PMessage) (hm : msg ∈ msgs) (m' m'' : Mem) (p : PRecord) (hp : pMakeArchivalRecord m' msg none = .ok (some p)) (anon : Anonymizer)
    (hl : ∀ q ∈ l, q ∈ anonymizeStores anon m'' p.raw) : MemoryRun (storeRun m0 m1 bufs msgs l) := by
  refine ⟨⟨_, rfl⟩, fun i => ?_⟩
  cases i with
  | zero => left; exact h1
  | succ n =>
    by_cases hn : n < l.length
    · left
      show Heap.Step ⟨m1.stores (l.take n), bufs, msgs⟩ ⟨m1.stores (l.take (n + 1)), bufs, msgs⟩
      rw [List.take_succ_eq_append_getElem hn, stores_append]
      exact Heap.Step.anonymize ⟨m1.stores (l.take n), bufs, msgs⟩ msg hm none m' m'' p hp anon l[n].1 l[n].2 (hl _ (List.getElem_mem hn))
    · right
      show (⟨m1.stores (l.take (n + 1)), _, _⟩ : Heap) = ⟨m1.stores (l.take n), _, _⟩
      rw [List.take_of_length_le (by omega), List.take_of_length_le (by omega)]

/-- From the third tick on, the saver sees the first record half anonymized. -/
def exMemEnv : Env :=
  { exEnv with view := fun n r => if r = exMemRec.load exMem1 1 ∧ n ≥ 3 then exMemRec.load (exMem1.stores (exMemStores.take 4)) 1 else r }

example : parseNetlinkMessage exMem1 exMemBuf = some (.ok [exMemMsg 0, exMemMsg 1]) := by decide +kernel
example : pMakeArchivalRecord exMem1 (exMemMsg 0) none = .ok (some exMemRec) := by decide +kernel
example : exMemStores.length = 8 := by decide +kernel

theorem exMem_run : MemoryRun exMemRun :=
  storeRun_run _ _ _ _ _ (Heap.Step.receive (Heap.init (fun _ => 0)) exMemBuf exMemData [exMemMsg 0, exMemMsg 1] (by decide +kernel) (by decide)
    (by simp [Heap.init]) (by decide +kernel)) (exMemMsg 0) (by simp) exMem1 exMem1 exMemRec (by decide +kernel) exMemAnon (fun _ h => h)

theorem view_reads (m0 m1 : Mem) (bufs : List PSlice) (msgs : List PMessage) (l : List (Nat × UInt8)) (env0 : Env) (he : env0.exclude = none) (msg : PMessage)
    (hm : msg ∈ msgs) (p : PRecord) (hp : pMakeArchivalRecord m1 msg none = .ok (some p)) (t : Int) (n0 k : Nat) :
    ReadsMemory (storeRun m0 m1 bufs msgs l)
      { env0 with view := fun n r => if r = p.load m1 t ∧ n ≥ n0 then p.load (m1.stores (l.take k)) t else r } := by
  intro n r
  by_cases h : r = p.load m1 t ∧ n ≥ n0
  · refine Or.inr ⟨1, k + 1, msg, p, t, by omega, hm, ?_, h.1, if_pos h⟩
    show pMakeArchivalRecord m1 msg env0.exclude = _
    rw [he]; exact hp
  · exact Or.inl (if_neg h)

theorem view_sees (env0 : Env) (m1 m2 : Mem) (p : PRecord) (t : Int) (n0 : Nat) :
    { env0 with view := fun n r => if r = p.load m1 t ∧ n ≥ n0 then p.load m2 t else r : Env }.view n0 (p.load m1 t) = p.load m2 t :=
  if_pos ⟨rfl, Nat.le_refl _⟩

theorem exMem_reads : ReadsMemory exMemRun exMemEnv :=
  view_reads _ _ _ _ _ exEnv rfl (exMemMsg 0) (by simp) exMemRec (by decide +kernel) 1 3 4

-- the saver does see a changed record, namely one of which only the source address is anonymized, and it compares with it
example : exMemEnv.view 3 (exMemRec.load exMem1 1) = exMemRec.load (exMem1.stores (exMemStores.take 4)) 1 :=
  view_sees exEnv exMem1 (exMem1.stores (exMemStores.take 4)) exMemRec 1 3
example : ((exMemRec.load (exMem1.stores (exMemStores.take 4)) 1).rawIDM.map (fun b => (sub 8 4 b, sub 24 4 b))) = some ([10, 1, 2, 0], [8, 8, 8, 8]) := by
  decide +kernel
example : ((exMemRec.load exMem1 1).rawIDM.map (fun b => (sub 8 4 b, sub 24 4 b))) = some ([10, 1, 2, 3], [8, 8, 8, 8]) := by decide +kernel
example : reports none (exBlock 1 [some ((exMemMsg 0).load exMem1)]) = [exMemRec.load exMem1 1] := by
  have hp : pMakeArchivalRecord exMem1 (exMemMsg 0) none = .ok (some exMemRec) := by decide +kernel
  have hv := C87_value exMem1 (exMemMsg 0) (by decide) none
  rw [hp] at hv
  have hv : makeArchivalRecord ((exMemMsg 0).load exMem1) none = .ok (some (exMemRec.load exMem1 0)) := hv.symm
  unfold reports exBlock
  simp [reportOf, hv]
  rfl

end TcpInfo
