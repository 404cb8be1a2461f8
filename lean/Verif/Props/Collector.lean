import Verif.Model.Collector
import Verif.Spec.Wire
import Verif.Lemmas.Bytes
/-!
# C06, C55, C56: the collector
-/

namespace TcpInfo
open Spec

/-! ## C06 -/

/-- C06. The request payload is 56 bytes: family, TCP, extension mask, pad, state mask, zero socket id. -/
theorem C06_layout (fam : UInt8) (seq : UInt32) :
    (makeReq fam seq).data.serialize.length = 56
    ∧ (makeReq fam seq).data.len = 56
    ∧ byte (makeReq fam seq).data.serialize 0 = fam
    ∧ byte (makeReq fam seq).data.serialize 1 = 6
    ∧ (∀ i, 8 ≤ i → byte (makeReq fam seq).data.serialize i = 0)
    ∧ (makeReq fam seq).type = 20
    ∧ (makeReq fam seq).flags = 0x301
    ∧ (makeReq fam seq).seq = seq := by
  refine ⟨rfl, rfl, rfl, rfl, ?_, rfl, rfl, rfl⟩
  intro i hi
  have : ∀ l : Bytes, l.length = 8 → byte (l ++ List.replicate 48 0) i = 0 := by
    intro l hl
    rw [byte, List.getD_eq_getElem?_getD, List.getElem?_append_right (by omega), List.getElem?_replicate]
    split <;> rfl
  exact this ([fam, 6, _, 0] ++ u32Bytes _) rfl

/-- C06. Bit s of the little-endian state mask (bytes 4..7) is set exactly for s = 0..11 without SYN_RECV (3), TIME_WAIT (6) and
CLOSE (7). -/
theorem C06_states (fam : UInt8) (seq : UInt32) (s : Nat) :
    (leNat (((makeReq fam seq).data.serialize.drop 4).take 4)).testBit s = true ↔ (s ≤ 11 ∧ s ≠ 3 ∧ s ≠ 6 ∧ s ≠ 7) := by
  have h : leNat (((makeReq fam seq).data.serialize.drop 4).take 4) = 0xF37 := by
    have : ((makeReq fam seq).data.serialize.drop 4).take 4 = [0x37, 0x0F, 0, 0] := by
      show u32Bytes (tcpAllFlags &&& ~~~((1 <<< UInt32.ofNat TCP_SYN_RECV) ||| (1 <<< UInt32.ofNat TCP_TIME_WAIT) ||| (1 <<< UInt32.ofNat TCP_CLOSE))) = _
      decide
    rw [this]; rfl
  rw [h]
  by_cases hs : s < 12
  · have : ∀ s : Fin 12, (Nat.testBit 0xF37 s = true ↔ (s.val ≤ 11 ∧ s.val ≠ 3 ∧ s.val ≠ 6 ∧ s.val ≠ 7)) := by decide
    exact this ⟨s, hs⟩
  · have : Nat.testBit 0xF37 s = false := Nat.testBit_lt_two_pow (by
      calc 0xF37 < 2 ^ 12 := by decide
        _ ≤ 2 ^ s := Nat.pow_le_pow_right (by omega) (by omega))
    rw [this]; simp; omega

/-- C06. Bit n-1 of the extension byte is set exactly for the extensions MEMINFO (1), INFO (2), VEGASINFO (3), CONG (4), TOS (5),
TCLASS (6), SKMEMINFO (7), SHUTDOWN (8). -/
theorem C06_extensions (fam : UInt8) (seq : UInt32) (n : Nat) (hn : 1 ≤ n) :
    (byte (makeReq fam seq).data.serialize 2).toNat.testBit (n - 1) = true ↔ n ∈ [1, 2, 3, 4, 5, 6, 7, 8] := by
  have h : (byte (makeReq fam seq).data.serialize 2).toNat = 0xFF := by
    show (extBits.foldl (fun e t => e ||| (1 <<< UInt8.ofNat (t - 1))) 0 : UInt8).toNat = _
    decide
  rw [h]
  by_cases hs : n ≤ 8
  · have : ∀ s : Fin 9, 1 ≤ s.val → (Nat.testBit 0xFF (s.val - 1) = true ↔ s.val ∈ [1, 2, 3, 4, 5, 6, 7, 8]) := by decide
    exact this ⟨n, by omega⟩ hn
  · have : Nat.testBit 0xFF (n - 1) = false := Nat.testBit_lt_two_pow (by
      calc 0xFF < 2 ^ 8 := by decide
        _ ≤ 2 ^ (n - 1) := Nat.pow_le_pow_right (by omega) (by omega))
    rw [this]
    constructor
    · intro h; simp at h
    · intro h; simp at h; omega

example : (makeReq 2 7).data.serialize.take 8 = [2, 6, 0xFF, 0, 0x37, 0x0F, 0, 0] := by decide

/-! ## C55 -/

namespace Spec

/-- What a received message means for the dump. -/
inductive Kind where
  /-- not an answer to our request, or an error message without code -/
  | bad (e : GoErr)
  /-- ends the dump and is not part of it -/
  | stop
  /-- part of the dump, and its last message -/
  | last
  /-- part of the dump -/
  | more
  deriving DecidableEq

/-- The kind of a message with respect to request number `seq` on port `pid`. -/
inductive IsKind (seq pid : UInt32) (m : NetlinkMessage) : Kind → Prop where
  | badSeq : m.header.seq ≠ seq → IsKind seq pid m (.bad .badSequence)
  | badPid : m.header.seq = seq → m.header.pid ≠ pid → IsKind seq pid m (.bad .badPid)
  | done : m.header.seq = seq → m.header.pid = pid → m.header.type = 3 → IsKind seq pid m .stop
  | shortError : m.header.seq = seq → m.header.pid = pid → m.header.type = 2 → m.data.length < 4 → IsKind seq pid m (.bad .badMsgData)
  | ack : m.header.seq = seq → m.header.pid = pid → m.header.type = 2 → m.data.take 4 = [0, 0, 0, 0] → IsKind seq pid m .stop
  | last : m.header.seq = seq → m.header.pid = pid → m.header.type ≠ 3 → (m.header.type = 2 → 4 ≤ m.data.length ∧ m.data.take 4 ≠ [0, 0, 0, 0]) →
      m.header.flags.toNat.testBit 1 = false → IsKind seq pid m .last
  | more : m.header.seq = seq → m.header.pid = pid → m.header.type ≠ 3 → (m.header.type = 2 → 4 ≤ m.data.length ∧ m.data.take 4 ≠ [0, 0, 0, 0]) →
      m.header.flags.toNat.testBit 1 = true → IsKind seq pid m .more

end Spec

theorem flags_multi (f : UInt16) : f &&& NLM_F_MULTI = 0 ↔ f.toNat.testBit 1 = false := by
  rw [← UInt16.toNat_inj, UInt16.toNat_and]
  show f.toNat &&& 2 = 0 ↔ _
  constructor
  · intro h
    have := congrArg (Nat.testBit · 1) h
    have h2 : Nat.testBit 2 1 = true := by decide
    simpa [h2] using this
  · intro h
    apply Nat.eq_of_testBit_eq
    intro i
    rw [Nat.testBit_and, Nat.zero_testBit]
    by_cases hi : i = 1
    · subst hi; rw [h]; rfl
    · have : Nat.testBit 2 i = false := by
        rw [show (2 : Nat) = 2 ^ 1 from rfl, Nat.testBit_two_pow]
        simp; omega
      rw [this, Bool.and_false]

theorem u32At_zero_iff (b : Bytes) (h : 4 ≤ b.length) : u32At 0 b = 0 ↔ b.take 4 = [0, 0, 0, 0] := by
  match b, h with
  | x0 :: x1 :: x2 :: x3 :: rest, _ =>
    have hx : ∀ x : UInt8, x = 0 ↔ x.toNat = 0 := fun x => by rw [← UInt8.toNat_inj]; rfl
    have := x0.toNat_lt; have := x1.toNat_lt; have := x2.toNat_lt; have := x3.toNat_lt
    rw [← UInt32.toNat_inj]
    simp only [u32At, sub, List.drop_zero, List.take_succ_cons, List.take_zero, leNat, UInt32.toNat_ofNat', UInt32.toNat_zero, List.cons.injEq, hx]
    simp only [and_true]
    constructor
    · intro h; refine ⟨?_, ?_, ?_, ?_⟩ <;> omega
    · rintro ⟨h0, h1, h2, h3⟩; rw [h0, h1, h2, h3]

/-- The kind decides what `processSingleMessage` returns. -/
theorem process_kind (seq pid : UInt32) (m : NetlinkMessage) (k : Kind) (h : IsKind seq pid m k) :
    processSingleMessage m seq pid = (match k with
      | .bad e => (none, false, some e)
      | .stop => (none, false, none)
      | .last => (some m, false, none)
      | .more => (some m, true, none)) := by
  have t23 : ¬ (2 : UInt16) = NLMSG_DONE := by decide
  have hED : ¬ NLMSG_ERROR = NLMSG_DONE := by decide
  cases h with
  | badSeq h => simp [processSingleMessage, h]
  | badPid h1 h2 => simp [processSingleMessage, h1, h2]
  | done h1 h2 h3 => simp [processSingleMessage, h1, h2, h3]
  | shortError h1 h2 h3 h4 => simp [processSingleMessage, h1, h2, h3, h4, t23]
  | ack h1 h2 h3 h4 =>
    have hl : 4 ≤ m.data.length := by
      have := congrArg List.length h4
      simp at this; omega
    have := (u32At_zero_iff m.data hl).2 h4
    simp [processSingleMessage, h1, h2, h3, this, t23]
    omega
  | last h1 h2 h3 h4 h5 =>
    have h5' := (flags_multi m.header.flags).2 h5
    by_cases h6 : m.header.type = NLMSG_ERROR
    · have := h4 h6
      have hz : u32At 0 m.data ≠ 0 := fun h => this.2 ((u32At_zero_iff _ this.1).1 h)
      simp [processSingleMessage, h1, h2, hED, h6, hz, h5', Nat.not_lt.2 this.1]
    · simp [processSingleMessage, h1, h2, h3, h6, h5']
  | more h1 h2 h3 h4 h5 =>
    have h5' : ¬ (m.header.flags &&& NLM_F_MULTI = 0) := fun h => by
      have := (flags_multi m.header.flags).1 h
      rw [h5] at this; simp at this
    by_cases h6 : m.header.type = NLMSG_ERROR
    · have := h4 h6
      have hz : u32At 0 m.data ≠ 0 := fun h => this.2 ((u32At_zero_iff _ this.1).1 h)
      simp [processSingleMessage, h1, h2, hED, h6, hz, h5', Nat.not_lt.2 this.1]
    · simp [processSingleMessage, h1, h2, h3, h6, h5']

/-- Every message has a kind. -/
theorem C55_kind_total (seq pid : UInt32) (m : NetlinkMessage) : ∃ k, IsKind seq pid m k := by
  by_cases h1 : m.header.seq = seq
  · by_cases h2 : m.header.pid = pid
    · by_cases h3 : m.header.type = 3
      · exact ⟨_, .done h1 h2 h3⟩
      · by_cases h4 : m.header.type = 2 ∧ m.data.length < 4
        · exact ⟨_, .shortError h1 h2 h4.1 h4.2⟩
        · by_cases h5 : m.header.type = 2 ∧ m.data.take 4 = [0, 0, 0, 0]
          · exact ⟨_, .ack h1 h2 h5.1 h5.2⟩
          · have h6 : m.header.type = 2 → 4 ≤ m.data.length ∧ m.data.take 4 ≠ [0, 0, 0, 0] :=
              fun h => ⟨Nat.le_of_not_lt (fun q => h4 ⟨h, q⟩), fun q => h5 ⟨h, q⟩⟩
            cases h7 : m.header.flags.toNat.testBit 1
            · exact ⟨_, .last h1 h2 h3 h6 h7⟩
            · exact ⟨_, .more h1 h2 h3 h6 h7⟩
    · exact ⟨_, .badPid h1 h2⟩
  · exact ⟨_, .badSeq h1⟩

theorem batch_more (seq pid : UInt32) (pre post res : List NetlinkMessage) (h : ∀ m ∈ pre, IsKind seq pid m .more) :
    oneTypeBatch seq pid (pre ++ post) res = oneTypeBatch seq pid post (res ++ pre) := by
  induction pre generalizing res with
  | nil => simp
  | cons m pre ih =>
    have hm := process_kind seq pid m .more (h m (by simp))
    rw [List.cons_append, oneTypeBatch, hm]
    simp only [if_true]
    rw [ih _ (fun x hx => h x (by simp [hx]))]
    simp

theorem batch_stop (seq pid : UInt32) (m : NetlinkMessage) (post res : List NetlinkMessage) (k : Kind) (hk : IsKind seq pid m k) (hne : k ≠ .more) :
    oneTypeBatch seq pid (m :: post) res =
      (if k = .last then res ++ [m] else res, some (match k with | .bad e => some e | _ => none)) := by
  have hm := process_kind seq pid m k hk
  rw [oneTypeBatch, hm]
  cases k <;> simp at hne ⊢

theorem loop_more (seq pid : UInt32) (bs : List (List NetlinkMessage)) (script : List (Except GoErr (List NetlinkMessage)))
    (res : List NetlinkMessage) (h : ∀ m ∈ bs.flatten, IsKind seq pid m .more) :
    oneTypeLoop seq pid (bs.map .ok ++ script) res = oneTypeLoop seq pid script (res ++ bs.flatten) := by
  induction bs generalizing res with
  | nil => simp
  | cons b bs ih =>
    have hb := batch_more seq pid b [] res (fun m hm => h m (by simp [hm]))
    rw [List.append_nil] at hb
    rw [List.map_cons, List.cons_append, oneTypeLoop, hb]
    simp only [oneTypeBatch]
    rw [ih _ (fun m hm => h m (by rw [List.flatten_cons]; exact List.mem_append_right _ hm))]
    simp

/-- C55. However the answer is cut into batches, and whatever follows it: if `pre` are the messages before the first one (`m`) that is
not simply "more", the dump returns `pre` (and `m` itself if it is a last, non-multipart message), and an error exactly when `m` is
bad. -/
theorem C55_dump (seq pid : UInt32) (bs : List (List NetlinkMessage)) (b1 : List NetlinkMessage) (m : NetlinkMessage)
    (b2 : List NetlinkMessage) (rest : List (Except GoErr (List NetlinkMessage))) (k : Kind)
    (hpre : ∀ x ∈ bs.flatten ++ b1, IsKind seq pid x .more) (hk : IsKind seq pid m k) (hne : k ≠ .more) :
    oneType none seq pid (bs.map .ok ++ .ok (b1 ++ m :: b2) :: rest) =
      some (match k with
        | .bad e => (bs.flatten ++ b1, some e)
        | .last => (bs.flatten ++ b1 ++ [m], none)
        | _ => (bs.flatten ++ b1, none)) := by
  rw [oneType, loop_more seq pid bs _ [] (fun x hx => hpre x (List.mem_append_left _ hx)), oneTypeLoop,
    batch_more seq pid b1 _ _ (fun x hx => hpre x (List.mem_append_right _ hx)), batch_stop seq pid m b2 _ k hk hne]
  cases k <;> simp at hne ⊢

/-- C55. A receive error before the terminator makes the dump fail with that error and no messages. -/
theorem C55_receive_error (seq pid : UInt32) (bs : List (List NetlinkMessage)) (e : GoErr) (rest : List (Except GoErr (List NetlinkMessage)))
    (hpre : ∀ x ∈ bs.flatten, IsKind seq pid x .more) :
    oneType none seq pid (bs.map .ok ++ .error e :: rest) = some ([], some e) := by
  rw [oneType, loop_more seq pid bs _ [] hpre, oneTypeLoop]

/-- C55. Without terminator or error the dump does not return. -/
theorem C55_waits (seq pid : UInt32) (bs : List (List NetlinkMessage)) (hpre : ∀ x ∈ bs.flatten, IsKind seq pid x .more) :
    oneType none seq pid (bs.map .ok) = none := by
  have := loop_more seq pid bs [] [] hpre
  rw [List.append_nil] at this
  rw [oneType, this, oneTypeLoop]

/-- C55. A failed setup is an error with no messages. -/
theorem C55_setup (e : GoErr) (seq pid : UInt32) (script : List (Except GoErr (List NetlinkMessage))) :
    oneType (some e) seq pid script = some ([], some e) := rfl

/-- Example messages: one of a multipart answer, and the DONE message. -/
def exMore : NetlinkMessage := { header := { len := 16, type := 20, flags := 2, seq := 7, pid := 9 }, data := [1, 2], spare := [] }
def exDone : NetlinkMessage := { header := { len := 16, type := 3, flags := 2, seq := 7, pid := 9 }, data := [], spare := [] }

example : IsKind 7 9 exMore .more := .more rfl rfl (by decide) (by decide) (by decide)
example : IsKind 7 9 exDone .stop := .done rfl rfl rfl
example : oneType none 7 9 [.ok [exMore, exMore], .ok [exMore, exDone, exMore], .ok [exMore]] = some ([exMore, exMore, exMore], none) := by decide
example : oneType none 7 9 [.ok [exMore, { exMore with header := { exMore.header with seq := 8 } }]] = some ([exMore], some .badSequence) := by decide

/-! ## C56 -/

theorem runLoop_stop (reps : Int) (cancelled : Nat → Bool) (poll : Nat → MessageBlock) (n i fuel : Nat) (hi : i ≤ n) (hf : n - i < fuel)
    (hgo : ∀ j, j < n → (reps = 0 ∨ (j : Int) < reps) ∧ cancelled j = false)
    (hstop : ¬ ((reps = 0 ∨ (n : Int) < reps) ∧ cancelled n = false)) :
    runLoop reps cancelled poll fuel i = ((List.range' i (n - i)).map poll, true) := by
  induction fuel generalizing i with
  | zero => omega
  | succ fuel ih =>
    rw [runLoop]
    by_cases h : i = n
    · subst h; rw [if_neg hstop]; simp
    · rw [if_pos (hgo i (by omega)), ih (i + 1) (by omega) (by omega)]
      have : n - i = (n - (i + 1)) + 1 := by omega
      rw [this, List.range'_succ]; rfl

/-- C56. With `reps = n > 0` and no cancellation, exactly the first n polls are submitted, in order, and the loop ends. -/
theorem C56_reps (n : Nat) (hn : 0 < n) (cancelled : Nat → Bool) (poll : Nat → MessageBlock) (hc : ∀ j, j < n → cancelled j = false) (fuel : Nat)
    (hf : n < fuel) : runLoop n cancelled poll fuel 0 = ((List.range n).map poll, true) := by
  rw [runLoop_stop n cancelled poll n 0 fuel (by omega) (by omega) (fun j hj => ⟨Or.inr (by omega), hc j hj⟩) (by rintro ⟨h | h, -⟩ <;> omega)]
  rw [List.range_eq_range']; rfl

/-- C56. With `reps = 0`, blocks are submitted until the cancellation is seen: if the k-th loop test is the first to see it, exactly the
k polls begun before are submitted. -/
theorem C56_until_cancel (k : Nat) (cancelled : Nat → Bool) (poll : Nat → MessageBlock) (hc : ∀ j, j < k → cancelled j = false)
    (hk : cancelled k = true) (fuel : Nat) (hf : k < fuel) : runLoop 0 cancelled poll fuel 0 = ((List.range k).map poll, true) := by
  rw [runLoop_stop 0 cancelled poll k 0 fuel (by omega) (by omega) (fun j hj => ⟨Or.inl rfl, hc j hj⟩) (by rintro ⟨-, h⟩; rw [hk] at h; simp at h)]
  rw [List.range_eq_range']; rfl

/-- C56. With `reps = n > 0` a cancellation seen at loop test `k ≤ n` limits the blocks to `k`. -/
theorem C56_reps_cancel (n k : Nat) (hn : 0 < n) (hkn : k ≤ n) (cancelled : Nat → Bool) (poll : Nat → MessageBlock) (hc : ∀ j, j < k → cancelled j = false)
    (hk : cancelled k = true) (fuel : Nat) (hf : k < fuel) : runLoop n cancelled poll fuel 0 = ((List.range k).map poll, true) := by
  rw [runLoop_stop n cancelled poll k 0 fuel (by omega) (by omega) (fun j hj => ⟨Or.inr (by omega), hc j hj⟩) (by rintro ⟨-, h⟩; rw [hk] at h; simp at h)]
  rw [List.range_eq_range']; rfl

/-- C56. With `reps = 0` and no cancellation the loop never ends: after any number of iterations as many blocks have been submitted. -/
theorem C56_forever (cancelled : Nat → Bool) (poll : Nat → MessageBlock) (hc : ∀ j, cancelled j = false) (fuel : Nat) :
    runLoop 0 cancelled poll fuel 0 = ((List.range fuel).map poll, false) := by
  suffices ∀ fuel i, runLoop 0 cancelled poll fuel i = ((List.range' i fuel).map poll, false) by
    rw [this, List.range_eq_range']
  intro fuel
  induction fuel with
  | zero => intro i; rfl
  | succ fuel ih =>
    intro i
    rw [runLoop, if_pos ⟨Or.inl rfl, hc i⟩, ih, List.range'_succ]; rfl

/-- C56. What a block contains: the messages of both dumps in order, those of a failed dump left out. -/
theorem C56_block (l6 l4 : List NetlinkMessage) (e6 e4 : Option GoErr) (t6 t4 : Int) :
    (collectBlock (l6, e6) t6 (l4, e4) t4).v6Time = t6 ∧ (collectBlock (l6, e6) t6 (l4, e4) t4).v4Time = t4
    ∧ (collectBlock (l6, e6) t6 (l4, e4) t4).v6Messages = (if e6 = none then l6.map some else [])
    ∧ (collectBlock (l6, e6) t6 (l4, e4) t4).v4Messages = (if e4 = none then l4.map some else []) := by
  refine ⟨rfl, rfl, ?_, ?_⟩
  · cases e6 <;> rfl
  · cases e4 <;> rfl

example : (runLoop 3 (fun _ => false) (fun k => { v4Time := k, v4Messages := [], v6Time := k, v6Messages := [] }) 10 0).1.map (·.v4Time) = [0, 1, 2] := by
  decide

end TcpInfo
