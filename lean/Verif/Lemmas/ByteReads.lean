import Verif.Model.ByteReads
import Verif.Lemmas.Memory
/-!
# Programs that read memory
-/

namespace TcpInfo
open Spec

theorem run_bind {α β : Type} (m : Mem) (p : RProg α) (f : α → RProg β) : (p.bind f).run m = (f (p.run m)).run m := by
  induction p with
  | ret x => rfl
  | read a k ih => exact ih _

theorem reads_bind {α β : Type} (m : Mem) (p : RProg α) (f : α → RProg β) : (p.bind f).reads m = p.reads m ++ (f (p.run m)).reads m := by
  induction p with
  | ret x => rfl
  | read a k ih =>
    show a :: ((k (m a)).bind f).reads m = a :: (k (m a)).reads m ++ _
    rw [ih]; rfl

theorem run_local {α : Type} (m m' : Mem) (p : RProg α) (h : ∀ a ∈ p.reads m, m' a = m a) : p.run m' = p.run m ∧ p.reads m' = p.reads m := by
  induction p with
  | ret x => exact ⟨rfl, rfl⟩
  | read a k ih =>
    have ha : m' a = m a := h a (List.mem_cons_self ..)
    obtain ⟨h1, h2⟩ := ih (m a) (fun x hx => h x (List.mem_cons_of_mem _ hx))
    refine ⟨?_, ?_⟩
    · show (k (m' a)).run m' = (k (m a)).run m
      rw [ha, h1]
    · show a :: (k (m' a)).reads m' = a :: (k (m a)).reads m
      rw [ha, h2]

theorem run_readBytes (m : Mem) (a n : Nat) : (readBytes a n).run m = m.bytes a n := by
  induction n generalizing a with
  | zero => rfl
  | succ n ih =>
    rw [Nat.add_comm, bytes_append, Nat.add_comm 1 n]
    show ((readBytes (a + 1) n).bind (fun l => .ret (m a :: l))).run m = _
    rw [run_bind, ih]; rfl

theorem reads_readBytes (m : Mem) (a n x : Nat) (h : x ∈ (readBytes a n).reads m) : a ≤ x ∧ x < a + n := by
  induction n generalizing a with
  | zero => cases h
  | succ n ih =>
    have h' : x ∈ a :: ((readBytes (a + 1) n).bind (fun l => .ret (m a :: l))).reads m := h
    rw [reads_bind] at h'
    rcases List.mem_cons.1 h' with rfl | h'
    · omega
    · rcases List.mem_append.1 h' with h' | h'
      · have := ih _ h'; omega
      · cases h'

theorem run_readSlice (m : Mem) (s : PSlice) : (readSlice s).run m = s.read m := run_readBytes ..

theorem part_load (m : Mem) (s : PSlice) (hc : s.len ≤ s.cap) (lo hi : Nat) : (s.part? lo hi).map (RProg.run m) = (s.load m).slice? lo hi := by
  unfold PSlice.part? GoSlice.slice?
  have e1 : (s.load m).val.length + (s.load m).spare.length = s.cap := by
    simp only [PSlice.load, PSlice.read, PSlice.spare, bytes_length]; omega
  rw [e1]
  split
  · next h =>
    simp only [Option.map_some, run_readBytes, PSlice.load, PSlice.read, PSlice.spare]
    rw [← bytes_append, show s.len + (s.cap - s.len) = s.cap by omega, bytes_take _ _ _ _ h.2, bytes_drop]
  · rfl

theorem run_compareAttrs (m : Mem) : ∀ (as bs : List (Option PSlice)) (tp : Nat),
    (rCompareAttrs tp as bs).run m = compareAttrsLoop tp (as.map (·.map (·.load m))) (bs.map (·.map (·.load m))) := by
  intro as
  induction as with
  | nil => intro bs tp; simp only [rCompareAttrs, List.map_nil, compareAttrsLoop]; rfl
  | cons a as ih =>
    intro bs tp
    cases bs with
    | nil => simp only [rCompareAttrs, List.map_cons, List.map_nil, compareAttrsLoop]; rfl
    | cons b bs =>
      simp only [rCompareAttrs, List.map_cons, compareAttrsLoop]
      split
      · exact ih bs _
      · cases a with
        | none =>
          cases b with
          | none => exact ih bs _
          | some y => rfl
        | some x =>
          cases b with
          | none => rfl
          | some y =>
            simp only [Option.map_some, PSlice.load, read_length]
            split
            · rfl
            · rw [run_bind, run_bind, run_readSlice, run_readSlice]
              split
              · rfl
              · exact ih bs _

theorem u8At_read (m : Mem) (s : PSlice) (off : Nat) (h : off < s.len) : u8At off (s.read m) = m (s.base + off) := by
  unfold u8At
  rw [List.getD_eq_getElem?_getD, PSlice.read, bytes_getElem?, if_pos h]; rfl

theorem parseIDM_read (m : Mem) (s : PSlice) (h : ¬ s.len < 72) : ∃ idm, parseIDM (s.read m) = .ok idm ∧ idm.state = m (s.base + 1) ∧ idm.family = m s.base := by
  unfold parseIDM
  simp only [show rtaAlignOf sizeofInetDiagMsg = 72 from rfl, read_length]
  rw [if_neg h]
  refine ⟨_, rfl, ?_, ?_⟩
  · exact u8At_read m s 1 (by omega)
  · exact u8At_read m s 0 (by omega)

theorem parseIDM_read_short (m : Mem) (s : PSlice) (h : s.len < 72) : parseIDM (s.read m) = .err .parseFailed := by
  unfold parseIDM
  simp only [show rtaAlignOf sizeofInetDiagMsg = 72 from rfl, read_length]
  rw [if_pos h]

theorem run_compare (m : Mem) (t t' : Int) (pm prev : PRecord) (hp : ∀ s, some s ∈ pm.attrs → s.len ≤ s.cap) (hq : ∀ s, some s ∈ prev.attrs → s.len ≤ s.cap) :
    (rCompare pm prev).run m = compareRecords (pm.load m t) (some (prev.load m t')) := by
  unfold rCompare compareRecords
  simp only [ArchivalRecord.raw, ArchivalRecord.attrs, PRecord.load, Option.getD_some]
  by_cases h1 : prev.raw.len < 72
  · rw [if_pos h1, parseIDM_read_short m _ h1]; rfl
  · obtain ⟨i1, e1, s1, -⟩ := parseIDM_read m _ h1
    rw [if_neg h1, e1]
    by_cases h2 : pm.raw.len < 72
    · rw [if_pos h2, parseIDM_read_short m _ h2]; rfl
    · obtain ⟨i2, e2, s2, -⟩ := parseIDM_read m _ h2
      rw [if_neg h2, e2]
      simp only [s1, s2, RProg.run, List.length_map, List.getElem?_map]
      by_cases hs : m (prev.raw.base + 1) ≠ m (pm.raw.base + 1)
      · rw [if_pos hs, if_pos hs]; rfl
      rw [if_neg hs, if_neg hs]
      by_cases hl : prev.attrs.length ≤ INET_DIAG_INFO ∨ pm.attrs.length ≤ INET_DIAG_INFO
      · rw [if_pos hl, if_pos hl]; rfl
      rw [if_neg hl, if_neg hl]
      cases ha : prev.attrs[INET_DIAG_INFO]? with
      | none => rfl
      | some a =>
        cases hb : pm.attrs[INET_DIAG_INFO]? with
        | none => cases a <;> rfl
        | some b =>
          cases a with
          | none => cases b <;> rfl
          | some a =>
            cases b with
            | none => rfl
            | some b =>
              have ca := hq a (List.mem_of_getElem? ha)
              have cb := hp b (List.mem_of_getElem? hb)
              simp only [Option.map_some]
              rw [← part_load m a ca, ← part_load m b cb, ← part_load m a ca, ← part_load m b cb]
              cases a.part? pmtuOffset busytimeOffset with
              | none => rfl
              | some ra =>
                cases b.part? pmtuOffset busytimeOffset with
                | none => rfl
                | some rb =>
                  simp only [Option.map_some, run_bind]
                  by_cases hd : RProg.run m ra ≠ RProg.run m rb
                  · rw [if_pos hd, if_pos hd]; rfl
                  rw [if_neg hd, if_neg hd]
                  cases a.part? 0 lastDataSentOffset with
                  | none => rfl
                  | some ra =>
                    cases b.part? 0 lastDataSentOffset with
                    | none => rfl
                    | some rb =>
                      simp only [Option.map_some, run_bind]
                      by_cases hd : RProg.run m ra ≠ RProg.run m rb
                      · rw [if_pos hd, if_pos hd]; rfl
                      rw [if_neg hd, if_neg hd]
                      split
                      · rfl
                      · split
                        · rfl
                        · rw [run_bind, run_compareAttrs]; rfl

theorem u64_read (m : Mem) (s : PSlice) (off : Nat) (h : off + 8 ≤ s.len) : u64At off (s.read m) = UInt64.ofNat (leNat (m.bytes (s.base + off) 8)) := by
  unfold u64At; rw [sub_read m s off 8 h]

theorem load64_read (m : Mem) (off : Nat) (s : PSlice) : (rLoad64 off s).map (RProg.run m) = load64 off (s.read m) := by
  unfold rLoad64 load64
  rw [read_length]
  split
  · next h => simp only [Option.map_some, run_bind, run_readBytes, u64_read m s off h]; rfl
  · rfl

theorem run_getStats (m : Mem) (t : Int) (p : PRecord) : (rGetStats p).run m = getStatsGo (p.load m t) := by
  unfold rGetStats getStatsGo
  simp only [ArchivalRecord.attrs, PRecord.load, Option.getD_some, List.length_map, List.getElem?_map]
  split
  · rfl
  · cases p.attrs[INET_DIAG_INFO]? with
    | none => rfl
    | some a =>
      cases a with
      | none => rfl
      | some raw =>
        simp only [Option.map_some, PSlice.load, read_length]
        split
        · rfl
        · rw [← load64_read, ← load64_read]
          cases rLoad64 bytesSentOffset raw with
          | none => rfl
          | some a =>
            cases rLoad64 bytesReceivedOffset raw with
            | none => rfl
            | some b => simp only [Option.map_some, run_bind]; rfl

theorem u16_read (m : Mem) (s : PSlice) (off n : Nat) (h : off + 2 ≤ n) (hn : n ≤ s.len) : u16At off (s.read m) = u16At off (m.bytes s.base n) := by
  unfold u16At
  rw [sub_read m s off 2 (by omega), show m.bytes s.base n = (PSlice.mk s.base n n).read m from rfl, sub_read m _ off 2 h]

theorem run_parseLoop (m : Mem) (fuel : Nat) : ∀ (b : PSlice) (acc : List PAttr),
    (rParseRouteAttrLoop fuel b acc).run m = pParseRouteAttrLoop m fuel b acc := by
  induction fuel with
  | zero => intros; rfl
  | succ fuel ih =>
    intro b acc
    simp only [rParseRouteAttrLoop, pParseRouteAttrLoop, netlinkRouteAttrAndValue, read_length]
    split
    · rfl
    · next h4 =>
      rw [run_bind, run_readBytes, u16_read m b 0 4 (by omega) (by omega), u16_read m b 2 4 (by omega) (by omega)]
      by_cases h : (u16At 0 (m.bytes b.base 4)).toNat < 4 ∨ (u16At 0 (m.bytes b.base 4)).toNat > b.len
      · rw [if_pos h, if_pos h]; rfl
      · rw [if_neg h, if_neg h]
        simp only []
        split
        · rfl
        · exact ih _ _

theorem run_makeRecord (m : Mem) (raw attrs : PSlice) : (rMakeRecord raw attrs).run m = pMakeRecord m raw attrs := by
  unfold rMakeRecord pMakeRecord
  rw [run_bind, run_parseLoop]
  cases pParseRouteAttrLoop m (attrs.len / 4 + 1) attrs [] with
  | none => rfl
  | some r => cases r <;> rfl

theorem run_make (m : Mem) (msg : PMessage) (ex : Option ExcludeConfig) : (rMakeArchivalRecord msg ex).run m = pMakeArchivalRecord m msg ex := by
  unfold rMakeArchivalRecord pMakeArchivalRecord
  split
  · rfl
  · split
    · rfl
    · cases ex with
      | none => exact run_makeRecord ..
      | some ex =>
        simp only [run_bind, run_readSlice]
        cases parseIDM ((msg.data.upto 72).read m) with
        | err e => rfl
        | panic => rfl
        | ok idm =>
          simp only []
          split
          · rfl
          · exact run_makeRecord ..

theorem run_anonymize (m : Mem) (anon : Anonymizer) (raw : PSlice) : (rAnonymize anon raw).run m = anonymizeStores anon m raw := by
  unfold rAnonymize anonymizeStores
  by_cases h : raw.len < 72
  · rw [if_pos h, parseIDM_read_short m raw h]; rfl
  · obtain ⟨idm, e, -, hf⟩ := parseIDM_read m raw h
    rw [if_neg h, e]
    simp only [RProg.run, hf]
    split
    · simp only [run_bind, run_readBytes]; rfl
    · split
      · simp only [run_bind, run_readBytes]; rfl
      · rfl

theorem run_attrs (m : Mem) (l : List (Option PSlice)) : (rAttrs l).run m = l.map (·.map (·.read m)) := by
  induction l with
  | nil => rfl
  | cons a l ih =>
    cases a with
    | none => simp only [rAttrs, run_bind, ih, List.map_cons]; rfl
    | some s => simp only [rAttrs, run_bind, run_readSlice, ih, List.map_cons]; rfl

theorem run_marshal (m : Mem) (p : PRecord) : (rMarshal p).run m = (p.raw.read m, p.attrs.map (·.map (·.read m))) := by
  unfold rMarshal
  simp only [run_bind, run_readSlice, run_attrs]; rfl

/-! ## Where the bytes are -/

/-- All addresses read satisfy `Q`. -/
def RProg.Only {α : Type} (m : Mem) (Q : Nat → Prop) (p : RProg α) : Prop := ∀ a ∈ p.reads m, Q a

theorem only_ret {α : Type} (m : Mem) (Q : Nat → Prop) (x : α) : (RProg.ret x).Only m Q := by intro a h; cases h

theorem only_read {α : Type} (m : Mem) (Q : Nat → Prop) (a : Nat) (k : UInt8 → RProg α) (ha : Q a) (hk : ∀ v, (k v).Only m Q) : (RProg.read a k).Only m Q := by
  intro x h
  rcases List.mem_cons.1 h with rfl | h
  · exact ha
  · exact hk _ x h

theorem only_bind {α β : Type} (m : Mem) (Q : Nat → Prop) (p : RProg α) (f : α → RProg β) (hp : p.Only m Q) (hf : ∀ x, (f x).Only m Q) : (p.bind f).Only m Q := by
  intro x h
  rw [reads_bind] at h
  rcases List.mem_append.1 h with h | h
  · exact hp x h
  · exact hf _ x h

theorem only_bytes (m : Mem) (Q : Nat → Prop) (a n : Nat) (h : ∀ x, a ≤ x → x < a + n → Q x) : (readBytes a n).Only m Q := by
  intro x hx
  have := reads_readBytes m a n x hx
  exact h x this.1 this.2

theorem only_slice (m : Mem) (Q : Nat → Prop) (s : PSlice) (h : ∀ x, s.base ≤ x → x < s.base + s.len → Q x) : (readSlice s).Only m Q := only_bytes m Q _ _ h

theorem only_compareAttrs (m : Mem) (Q : Nat → Prop) : ∀ (as bs : List (Option PSlice)) (tp : Nat),
    (∀ s, some s ∈ as ∨ some s ∈ bs → ∀ x, s.base ≤ x → x < s.base + s.len → Q x) → (rCompareAttrs tp as bs).Only m Q := by
  intro as
  induction as with
  | nil => intro bs tp _; simp only [rCompareAttrs]; exact only_ret _ _ _
  | cons a as ih =>
    intro bs tp h
    cases bs with
    | nil => simp only [rCompareAttrs]; exact only_ret _ _ _
    | cons b bs =>
      have hi := ih bs (tp + 1) (fun s hs => h s (hs.imp (List.mem_cons_of_mem _) (List.mem_cons_of_mem _)))
      simp only [rCompareAttrs]
      split
      · exact hi
      · cases a with
        | none =>
          cases b with
          | none => exact hi
          | some y => exact only_ret _ _ _
        | some x =>
          cases b with
          | none => exact only_ret _ _ _
          | some y =>
            simp only []
            split
            · exact only_ret _ _ _
            · refine only_bind _ _ _ _ (only_slice _ _ _ (h x (Or.inl (List.mem_cons_self ..)))) (fun u => ?_)
              refine only_bind _ _ _ _ (only_slice _ _ _ (h y (Or.inr (List.mem_cons_self ..)))) (fun v => ?_)
              split
              · exact only_ret _ _ _
              · exact hi

theorem only_part (m : Mem) (Q : Nat → Prop) (s : PSlice) (lo hi : Nat) (r : RProg Bytes) (hr : s.part? lo hi = some r) (hl : hi ≤ s.len)
    (h : ∀ x, s.base ≤ x → x < s.base + s.len → Q x) : r.Only m Q := by
  unfold PSlice.part? at hr
  split at hr
  · injection hr with hr; subst hr
    exact only_bytes _ _ _ _ (fun x h1 h2 => h x (by omega) (by omega))
  · cases hr

theorem offsets : pmtuOffset ≤ 168 ∧ busytimeOffset = 168 ∧ lastDataSentOffset ≤ 168 := by decide

theorem only_compare (m : Mem) (Q : Nat → Prop) (pm prev : PRecord) (h1 : Q (prev.raw.base + 1)) (h2 : Q (pm.raw.base + 1))
    (i1 : ∀ s, prev.attrs[2]? = some (some s) → 168 ≤ s.len) (i2 : ∀ s, pm.attrs[2]? = some (some s) → 168 ≤ s.len)
    (h : ∀ s, some s ∈ prev.attrs ∨ some s ∈ pm.attrs → ∀ x, s.base ≤ x → x < s.base + s.len → Q x) : (rCompare pm prev).Only m Q := by
  have ho := offsets
  unfold rCompare
  split
  · exact only_ret _ _ _
  split
  · exact only_ret _ _ _
  refine only_read _ _ _ _ h1 (fun s => only_read _ _ _ _ h2 (fun s' => ?_))
  split
  · exact only_ret _ _ _
  split
  · exact only_ret _ _ _
  cases ha : prev.attrs[INET_DIAG_INFO]? with
  | none => exact only_ret _ _ _
  | some a =>
    cases hb : pm.attrs[INET_DIAG_INFO]? with
    | none => cases a <;> exact only_ret _ _ _
    | some b =>
      cases a with
      | none => cases b <;> exact only_ret _ _ _
      | some a =>
        cases b with
        | none => exact only_ret _ _ _
        | some b =>
          have la := i1 a ha
          have lb := i2 b hb
          have qa := h a (Or.inl (List.mem_of_getElem? ha))
          have qb := h b (Or.inr (List.mem_of_getElem? hb))
          simp only []
          cases ea : a.part? pmtuOffset busytimeOffset with
          | none => exact only_ret _ _ _
          | some ra =>
            cases eb : b.part? pmtuOffset busytimeOffset with
            | none => exact only_ret _ _ _
            | some rb =>
              refine only_bind _ _ _ _ (only_part _ _ _ _ _ _ ea (by omega) qa) (fun _ => ?_)
              refine only_bind _ _ _ _ (only_part _ _ _ _ _ _ eb (by omega) qb) (fun _ => ?_)
              split
              · exact only_ret _ _ _
              · cases ec : a.part? 0 lastDataSentOffset with
                | none => exact only_ret _ _ _
                | some ra =>
                  cases ed : b.part? 0 lastDataSentOffset with
                  | none => exact only_ret _ _ _
                  | some rb =>
                    refine only_bind _ _ _ _ (only_part _ _ _ _ _ _ ec (by omega) qa) (fun _ => ?_)
                    refine only_bind _ _ _ _ (only_part _ _ _ _ _ _ ed (by omega) qb) (fun _ => ?_)
                    split
                    · exact only_ret _ _ _
                    split
                    · exact only_ret _ _ _
                    split
                    · exact only_ret _ _ _
                    · exact only_bind _ _ _ _ (only_compareAttrs _ _ _ _ _ h) (fun _ => only_ret _ _ _)

theorem only_load64 (m : Mem) (Q : Nat → Prop) (off : Nat) (s : PSlice) (r : RProg UInt64) (hr : rLoad64 off s = some r)
    (h : ∀ x, s.base ≤ x → x < s.base + s.len → Q x) : r.Only m Q := by
  unfold rLoad64 at hr
  split at hr
  · injection hr with hr; subst hr
    exact only_bind _ _ _ _ (only_bytes _ _ _ _ (fun x h1 h2 => h x (by omega) (by omega))) (fun _ => only_ret _ _ _)
  · cases hr

theorem only_getStats (m : Mem) (Q : Nat → Prop) (p : PRecord) (h : ∀ s, some s ∈ p.attrs → ∀ x, s.base ≤ x → x < s.base + s.len → Q x) :
    (rGetStats p).Only m Q := by
  unfold rGetStats
  split
  · exact only_ret _ _ _
  · cases ha : p.attrs[INET_DIAG_INFO]? with
    | none => exact only_ret _ _ _
    | some a =>
      cases a with
      | none => exact only_ret _ _ _
      | some raw =>
        have q := h raw (List.mem_of_getElem? ha)
        simp only []
        split
        · exact only_ret _ _ _
        · cases e1 : rLoad64 bytesSentOffset raw with
          | none => exact only_ret _ _ _
          | some a =>
            cases e2 : rLoad64 bytesReceivedOffset raw with
            | none => exact only_ret _ _ _
            | some b => exact only_bind _ _ _ _ (only_load64 _ _ _ _ _ e1 q) (fun _ => only_bind _ _ _ _ (only_load64 _ _ _ _ _ e2 q) (fun _ => only_ret _ _ _))

theorem only_state (m : Mem) (Q : Nat → Prop) (p : PRecord) (h : Q (p.raw.base + 1)) : (rState p).Only m Q := by
  unfold rState
  split
  · exact only_ret _ _ _
  · exact only_read _ _ _ _ h (fun _ => only_ret _ _ _)

theorem only_parseLoop (m : Mem) (Q : Nat → Prop) (fuel : Nat) : ∀ (b : PSlice) (acc : List PAttr), (∀ x, b.base ≤ x → x < b.base + b.len → Q x) →
    (rParseRouteAttrLoop fuel b acc).Only m Q := by
  induction fuel with
  | zero => intro b acc _; exact only_ret _ _ _
  | succ fuel ih =>
    intro b acc h
    simp only [rParseRouteAttrLoop]
    split
    · exact only_ret _ _ _
    · refine only_bind _ _ _ _ (only_bytes _ _ _ _ (fun x h1 h2 => h x (by omega) (by omega))) (fun v => ?_)
      split
      · exact only_ret _ _ _
      · split
        · exact only_ret _ _ _
        · refine ih _ _ (fun x h1 h2 => ?_)
          simp only [PSlice.after] at h1 h2
          exact h x (by omega) (by omega)

theorem only_make (m : Mem) (Q : Nat → Prop) (msg : PMessage) (ex : Option ExcludeConfig) (h : ∀ x, msg.data.base ≤ x → x < msg.data.base + msg.data.len → Q x) :
    (rMakeArchivalRecord msg ex).Only m Q := by
  unfold rMakeArchivalRecord
  split
  · exact only_ret _ _ _
  split
  · exact only_ret _ _ _
  next hl =>
  have key : (rMakeRecord (msg.data.upto 72) (msg.data.after 72)).Only m Q := by
    unfold rMakeRecord
    refine only_bind _ _ _ _ (only_parseLoop _ _ _ _ _ (fun x h1 h2 => ?_)) (fun r => ?_)
    · simp only [PSlice.after] at h1 h2
      exact h x (by omega) (by omega)
    · cases r with
      | none => exact only_ret _ _ _
      | some r => cases r <;> exact only_ret _ _ _
  cases ex with
  | none => exact key
  | some ex =>
    simp only []
    refine only_bind _ _ _ _ (only_slice _ _ _ (fun x h1 h2 => ?_)) (fun b => ?_)
    · simp only [PSlice.upto] at h1 h2
      exact h x (by omega) (by omega)
    · cases parseIDM b with
      | err e => exact only_ret _ _ _
      | panic => exact only_ret _ _ _
      | ok idm =>
        simp only []
        split
        · exact only_ret _ _ _
        · exact key

theorem only_header (m : Mem) (Q : Nat → Prop) (p : PRecord) (h : ∀ x, p.raw.base ≤ x → x < p.raw.base + p.raw.len → Q x) : (rHeader p).Only m Q :=
  only_bind _ _ _ _ (only_slice _ _ _ h) (fun _ => only_ret _ _ _)

theorem only_anonymize (m : Mem) (Q : Nat → Prop) (anon : Anonymizer) (raw : PSlice) (h : ∀ x, raw.base ≤ x → x < raw.base + raw.len → Q x) :
    (rAnonymize anon raw).Only m Q := by
  unfold rAnonymize
  split
  · exact only_ret _ _ _
  next hl =>
  refine only_read _ _ _ _ (h _ (by omega) (by omega)) (fun f => ?_)
  split
  · exact only_bind _ _ _ _ (only_bytes _ _ _ _ (fun x h1 h2 => h x (by omega) (by omega))) (fun _ =>
      only_bind _ _ _ _ (only_bytes _ _ _ _ (fun x h1 h2 => h x (by omega) (by omega))) (fun _ => only_ret _ _ _))
  · split
    · exact only_bind _ _ _ _ (only_bytes _ _ _ _ (fun x h1 h2 => h x (by omega) (by omega))) (fun _ =>
        only_bind _ _ _ _ (only_bytes _ _ _ _ (fun x h1 h2 => h x (by omega) (by omega))) (fun _ => only_ret _ _ _))
    · exact only_ret _ _ _

theorem only_attrs (m : Mem) (Q : Nat → Prop) (l : List (Option PSlice)) (h : ∀ s, some s ∈ l → ∀ x, s.base ≤ x → x < s.base + s.len → Q x) :
    (rAttrs l).Only m Q := by
  induction l with
  | nil => exact only_ret _ _ _
  | cons a l ih =>
    have hi := ih (fun s hs => h s (List.mem_cons_of_mem _ hs))
    cases a with
    | none => exact only_bind _ _ _ _ hi (fun _ => only_ret _ _ _)
    | some s => exact only_bind _ _ _ _ (only_slice _ _ _ (h s (List.mem_cons_self ..))) (fun _ => only_bind _ _ _ _ hi (fun _ => only_ret _ _ _))

theorem only_marshal (m : Mem) (Q : Nat → Prop) (p : PRecord) (h1 : ∀ x, p.raw.base ≤ x → x < p.raw.base + p.raw.len → Q x)
    (h2 : ∀ s, some s ∈ p.attrs → ∀ x, s.base ≤ x → x < s.base + s.len → Q x) : (rMarshal p).Only m Q :=
  only_bind _ _ _ _ (only_slice _ _ _ h1) (fun _ => only_bind _ _ _ _ (only_attrs _ _ _ h2) (fun _ => only_ret _ _ _))

/-! ## Capacities -/

theorem pLoop_cap (m : Mem) (fuel : Nat) : ∀ (b : PSlice) (acc l : List PAttr), b.len ≤ b.cap → (∀ a ∈ acc, a.value.len ≤ a.value.cap) →
    pParseRouteAttrLoop m fuel b acc = some (.ok l) → ∀ a ∈ l, a.value.len ≤ a.value.cap := by
  induction fuel with
  | zero => intro b acc l _ _ h; cases h
  | succ fuel ih =>
    intro b acc l hc ha h
    simp only [pParseRouteAttrLoop, netlinkRouteAttrAndValue, read_length] at h
    split at h
    · injection h with h; injection h with h; subst h; exact ha
    · by_cases hl : (u16At 0 (b.read m)).toNat < 4 ∨ (u16At 0 (b.read m)).toNat > b.len
      · rw [if_pos hl] at h; cases h
      · rw [if_neg hl] at h
        simp only [] at h
        split at h
        · cases h
        · refine ih (b.after _) _ l ?_ ?_ h
          · simp only [PSlice.after]; omega
          · intro a hm
            rcases List.mem_append.1 hm with hm | hm
            · exact ha a hm
            · rw [List.mem_singleton.1 hm]
              simp only [PSlice.after, PSlice.upto]; omega

theorem pMakeRecord_cap (m : Mem) (raw attrs : PSlice) (hc : attrs.len ≤ attrs.cap) (p : PRecord) (h : pMakeRecord m raw attrs = .ok (some p)) :
    ∀ s, some s ∈ p.attrs → s.len ≤ s.cap := by
  unfold pMakeRecord at h
  cases hl : pParseRouteAttrLoop m (attrs.len / 4 + 1) attrs [] with
  | none => rw [hl] at h; cases h
  | some r =>
    rw [hl] at h
    cases r with
    | err e => cases h
    | panic => cases h
    | ok as =>
      simp only at h
      injection h with h; injection h with h; subst h
      intro s hs
      rcases pFillAttrs_mem _ _ _ _ hs with hs | ⟨a, ha, rfl⟩
      · have := (List.mem_replicate.1 hs).2; cases this
      · exact pLoop_cap m _ _ _ _ hc (by simp) hl a ha

theorem pMake_cap (m : Mem) (msg : PMessage) (hc : msg.data.len ≤ msg.data.cap) (ex : Option ExcludeConfig) (p : PRecord)
    (h : pMakeArchivalRecord m msg ex = .ok (some p)) : ∀ s, some s ∈ p.attrs → s.len ≤ s.cap := by
  have hc' : (msg.data.after 72).len ≤ (msg.data.after 72).cap := by simp only [PSlice.after]; omega
  unfold pMakeArchivalRecord at h
  split at h
  · cases h
  split at h
  · cases h
  cases ex with
  | none => exact pMakeRecord_cap m _ _ hc' p h
  | some ex =>
    simp only at h
    cases hp : parseIDM ((msg.data.upto 72).read m) with
    | err e => rw [hp] at h; cases h
    | panic => rw [hp] at h; cases h
    | ok idm =>
      rw [hp] at h
      simp only at h
      split at h
      · injection h with h; cases h
      · exact pMakeRecord_cap m _ _ hc' p h

end TcpInfo
