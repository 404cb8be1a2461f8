import Verif.Model.SnapshotMemory
import Verif.Lemmas.Memory
/-!
# Lemmas: the structs of a snapshot in memory
-/

namespace TcpInfo

/-- Memory that was in use is as it was. -/
def Keeps (h h' : PHeap) : Prop := h.brk ≤ h'.brk ∧ ∀ x, x < h.brk → h'.mem x = h.mem x

theorem Keeps.refl (h : PHeap) : Keeps h h := ⟨Nat.le_refl _, fun _ _ => rfl⟩
theorem Keeps.trans {a b c : PHeap} (h1 : Keeps a b) (h2 : Keeps b c) : Keeps a c :=
  ⟨Nat.le_trans h1.1 h2.1, fun x hx => (h2.2 x (Nat.lt_of_lt_of_le hx h1.1)).trans (h1.2 x hx)⟩

theorem keeps_alloc (h : PHeap) (b : Bytes) : Keeps h (h.alloc b) :=
  ⟨Nat.le_add_right _ _, fun x hx => store_other _ _ _ _ (Or.inl hx)⟩

theorem keeps_bytes {h h' : PHeap} (hk : Keeps h h') {a n : Nat} (ha : a + n ≤ h.brk) : h'.mem.bytes a n = h.mem.bytes a n :=
  bytes_congr _ _ _ _ (fun x _ h2 => hk.2 x (by omega))

/-- A slice in the memory that begins at `lo` and ends at `brk`. -/
def SIn (lo brk : Nat) (s : PSlice) : Prop := s.len ≤ s.cap ∧ s.base + s.cap ≤ brk ∧ lo ≤ s.base

theorem SIn.mono {lo a b : Nat} {s : PSlice} (h : SIn lo a s) (hab : a ≤ b) : SIn lo b s := ⟨h.1, Nat.le_trans h.2.1 hab, h.2.2⟩

theorem SIn.low {lo l b : Nat} {s : PSlice} (h : SIn lo b s) (hl : l ≤ lo) : SIn l b s := ⟨h.1, h.2.1, Nat.le_trans hl h.2.2⟩

theorem keeps_read {h h' : PHeap} (hk : Keeps h h') {lo : Nat} {s : PSlice} (hs : SIn lo h.brk s) : s.read h'.mem = s.read h.mem :=
  keeps_bytes hk (by have := hs.1; have := hs.2.1; omega)

theorem keeps_load {h h' : PHeap} (hk : Keeps h h') {lo : Nat} {s : PSlice} (hs : SIn lo h.brk s) : s.load h'.mem = s.load h.mem := by
  unfold PSlice.load PSlice.spare
  rw [keeps_read hk hs, keeps_bytes hk (by have := hs.1; have := hs.2.1; omega)]

/-- An optional struct of `n` bytes in the memory between `lo` and `brk`. -/
def PIn (lo brk n : Nat) (p : Option Nat) : Prop := ∀ a, p = some a → lo ≤ a ∧ a + n ≤ brk

theorem PIn.mono {lo a b n : Nat} {p : Option Nat} (h : PIn lo a n p) (hab : a ≤ b) : PIn lo b n p := fun x hx => ⟨(h x hx).1, Nat.le_trans (h x hx).2 hab⟩
theorem PIn.none (lo b n : Nat) : PIn lo b n none := fun _ h => by simp at h

/-- All pointers of a snapshot lead to the memory between `lo` and `brk`. -/
structure SnapIn (lo brk : Nat) (p : PSnapshot) : Prop where
  idm : PIn lo brk 72 p.inetDiagMsg
  tcp : PIn lo brk (goSizeof goTCPInfo) p.tcpInfo
  mem : PIn lo brk (goSizeof goMemInfo) p.memInfo
  sock : PIn lo brk (goSizeof goSocketMemInfo) p.socketMem
  vegas : PIn lo brk (goSizeof goVegasInfo) p.vegasInfo
  dctcp : PIn lo brk (goSizeof goDCTCPInfo) p.dctcpInfo
  bbr : PIn lo brk (goSizeof goBBRInfo) p.bbrInfo

theorem SnapIn.mono {lo a b : Nat} {p : PSnapshot} (h : SnapIn lo a p) (hab : a ≤ b) : SnapIn lo b p :=
  ⟨h.idm.mono hab, h.tcp.mono hab, h.mem.mono hab, h.sock.mono hab, h.vegas.mono hab, h.dctcp.mono hab, h.bbr.mono hab⟩

theorem PIn.low {lo l b n : Nat} {p : Option Nat} (h : PIn lo b n p) (hl : l ≤ lo) : PIn l b n p := fun x hx => ⟨Nat.le_trans hl (h x hx).1, (h x hx).2⟩
theorem SnapIn.low {lo l b : Nat} {p : PSnapshot} (h : SnapIn lo b p) (hl : l ≤ lo) : SnapIn l b p :=
  ⟨h.idm.low hl, h.tcp.low hl, h.mem.low hl, h.sock.low hl, h.vegas.low hl, h.dctcp.low hl, h.bbr.low hl⟩

theorem map_bytes_keeps {h h' : PHeap} (hk : Keeps h h') {lo n : Nat} {p : Option Nat} (hp : PIn lo h.brk n p) :
    p.map (fun a => h'.mem.bytes a n) = p.map (fun a => h.mem.bytes a n) := by
  cases p with
  | none => rfl
  | some a => exact congrArg some (keeps_bytes hk (hp a rfl).2)

theorem idmAt_keeps {h h' : PHeap} (hk : Keeps h h') {a : Nat} (ha : a + 72 ≤ h.brk) : idmAt h'.mem a = idmAt h.mem a := by
  unfold idmAt; rw [keeps_bytes hk ha]

theorem snap_keeps {h h' : PHeap} (hk : Keeps h h') {lo : Nat} {p : PSnapshot} (hp : SnapIn lo h.brk p) : p.load h'.mem = p.load h.mem := by
  unfold PSnapshot.load
  rw [map_bytes_keeps hk hp.tcp, map_bytes_keeps hk hp.mem, map_bytes_keeps hk hp.sock, map_bytes_keeps hk hp.vegas, map_bytes_keeps hk hp.dctcp, map_bytes_keeps hk hp.bbr]
  have : p.inetDiagMsg.bind (idmAt h'.mem) = p.inetDiagMsg.bind (idmAt h.mem) := by
    cases e : p.inetDiagMsg with
    | none => rfl
    | some a => exact idmAt_keeps hk (hp.idm a e).2
  rw [this]

theorem pMaybeCopy_ok (h : PHeap) (src : PSlice) (size : Nat) {lo : Nat} (hlo : lo ≤ h.brk) (hs : SIn lo h.brk src) :
    Keeps h (pMaybeCopy h src size).1 ∧ lo ≤ (pMaybeCopy h src size).2.1 ∧ (pMaybeCopy h src size).2.1 + size ≤ (pMaybeCopy h src size).1.brk
      ∧ (pMaybeCopy h src size).1.mem.bytes (pMaybeCopy h src size).2.1 size = (maybeCopy (src.read h.mem) size).1
      ∧ (pMaybeCopy h src size).2.2 = (maybeCopy (src.read h.mem) size).2 := by
  unfold pMaybeCopy maybeCopy
  rw [read_length]
  split
  · rename_i hl
    have e : (src.read h.mem ++ List.replicate (size - src.len) 0).length = size := by simp [read_length]; omega
    refine ⟨keeps_alloc _ _, hlo, by simp only [PHeap.alloc, e]; exact Nat.le_refl _, ?_, rfl⟩
    have := store_bytes h.mem h.brk (src.read h.mem ++ List.replicate (size - src.len) 0)
    rw [e] at this
    exact this
  · rename_i hl
    have := hs.1; have := hs.2.1
    exact ⟨Keeps.refl _, hs.2.2, by simp only; omega, (bytes_take _ _ _ _ (by omega)).symm, rfl⟩

/-- What one round of the loop does. -/
structure SwitchOk (lo t : Nat) (raw : PSlice) (h : PHeap) (s : PSnapshot) (h' : PHeap) (s' : PSnapshot) (ok : Bool) : Prop where
  keeps : Keeps h h'
  inn : SnapIn lo h'.brk s'
  value : decodeSwitch t (raw.read h.mem) (s.load h.mem) = some (s'.load h'.mem, ok)

theorem switch_put {lo : Nat} {h : PHeap} {raw : PSlice} (hlo : lo ≤ h.brk) (hr : SIn lo h.brk raw) (g : GoStruct) (set : Nat → PSnapshot) (setV : Bytes → Snapshot)
    (h1 : ∀ h' a, Keeps h h' → lo ≤ a ∧ a + goSizeof g ≤ h'.brk → SnapIn lo h'.brk (set a))
    (h2 : ∀ h' a, Keeps h h' → (set a).load h'.mem = setV (h'.mem.bytes a (goSizeof g))) :
    Keeps h (pPutStruct h raw g set).1 ∧ SnapIn lo (pPutStruct h raw g set).1.brk (pPutStruct h raw g set).2.1
      ∧ putStruct (raw.read h.mem) g setV = ((pPutStruct h raw g set).2.1.load (pPutStruct h raw g set).1.mem, (pPutStruct h raw g set).2.2) := by
  obtain ⟨a1, a0, a2, a3, a4⟩ := pMaybeCopy_ok h raw (goSizeof g) hlo hr
  refine ⟨a1, h1 _ _ a1 ⟨a0, a2⟩, ?_⟩
  unfold putStruct pPutStruct
  simp only
  rw [h2 _ _ a1, a3, a4]

/-- What one round of the loop comes to. -/
def SwitchRes (lo t : Nat) (raw : PSlice) (h : PHeap) (s : PSnapshot) : Option (PHeap × PSnapshot × Bool) → Prop
  | none => decodeSwitch t (raw.read h.mem) (s.load h.mem) = none
  | some (h', s', ok) => SwitchOk lo t raw h s h' s' ok

theorem switchRes_some {lo t : Nat} {raw : PSlice} {h : PHeap} {s : PSnapshot} (r : PHeap × PSnapshot × Bool) (hr : SwitchOk lo t raw h s r.1 r.2.1 r.2.2) :
    SwitchRes lo t raw h s (some r) := by
  obtain ⟨a, b, c⟩ := r
  exact hr

theorem switch_ok {lo t : Nat} {raw : PSlice} {h : PHeap} {s : PSnapshot} (hlo : lo ≤ h.brk) (hr : SIn lo h.brk raw) (hs : SnapIn lo h.brk s) :
    SwitchRes lo t raw h s (pDecodeSwitch t raw h s) := by
  have one : ∀ {a : Nat} {n : Nat} {b : Nat}, lo ≤ a ∧ a + n ≤ b → PIn lo b n (some a) := fun h _ e => by injection e with e; subst e; exact h
  have mk : ∀ (g : GoStruct) (set : Nat → PSnapshot) (setV : Bytes → Snapshot),
      decodeSwitch t (raw.read h.mem) (s.load h.mem) = some (putStruct (raw.read h.mem) g setV) →
      (∀ h' a, Keeps h h' → lo ≤ a ∧ a + goSizeof g ≤ h'.brk → SnapIn lo h'.brk (set a)) →
      (∀ h' a, Keeps h h' → (set a).load h'.mem = setV (h'.mem.bytes a (goSizeof g))) →
      SwitchRes lo t raw h s (some (pPutStruct h raw g set)) := by
    intro g set setV e h1 h2
    refine switchRes_some _ ?_
    obtain ⟨a1, a2, a3⟩ := switch_put hlo hr g set setV h1 h2
    exact ⟨a1, a2, by rw [e, a3]⟩
  have ld : ∀ {h' : PHeap}, Keeps h h' → s.load h'.mem = s.load h.mem := fun hk => snap_keeps hk hs
  unfold pDecodeSwitch
  split
  case h_1 =>
    exact mk _ (fun a => { s with memInfo := some a }) (fun m => { s.load h.mem with memInfo := some m }) (by unfold decodeSwitch; rfl)
      (fun h' a hk ha => { (hs.mono hk.1) with mem := one ha }) (fun h' a hk => by rw [← ld hk]; unfold PSnapshot.load; rfl)
  case h_2 =>
    exact mk _ (fun a => { s with tcpInfo := some a }) (fun m => { s.load h.mem with tcpInfo := some m }) (by unfold decodeSwitch; rfl)
      (fun h' a hk ha => { (hs.mono hk.1) with tcp := one ha }) (fun h' a hk => by rw [← ld hk]; unfold PSnapshot.load; rfl)
  case h_3 =>
    exact mk _ (fun a => { s with vegasInfo := some a }) (fun m => { s.load h.mem with vegasInfo := some m }) (by unfold decodeSwitch; rfl)
      (fun h' a hk ha => { (hs.mono hk.1) with vegas := one ha }) (fun h' a hk => by rw [← ld hk]; unfold PSnapshot.load; rfl)
  case h_4 =>
    cases e : congestionAlgorithm (raw.read h.mem) with
    | none => simp [SwitchRes, decodeSwitch, e]
    | some r => exact ⟨Keeps.refl _, { hs with }, by simp only [decodeSwitch, e]; rfl⟩
  case h_7 =>
    exact mk _ (fun a => { s with socketMem := some a }) (fun m => { s.load h.mem with socketMem := some m }) (by unfold decodeSwitch; rfl)
      (fun h' a hk ha => { (hs.mono hk.1) with sock := one ha }) (fun h' a hk => by rw [← ld hk]; unfold PSnapshot.load; rfl)
  case h_9 =>
    exact mk _ (fun a => { s with dctcpInfo := some a }) (fun m => { s.load h.mem with dctcpInfo := some m }) (by unfold decodeSwitch; rfl)
      (fun h' a hk ha => { (hs.mono hk.1) with dctcp := one ha }) (fun h' a hk => by rw [← ld hk]; unfold PSnapshot.load; rfl)
  case h_12 =>
    exact mk _ (fun a => { s with bbrInfo := some a }) (fun m => { s.load h.mem with bbrInfo := some m }) (by unfold decodeSwitch; rfl)
      (fun h' a hk ha => { (hs.mono hk.1) with bbr := one ha }) (fun h' a hk => by rw [← ld hk]; unfold PSnapshot.load; rfl)
  case h_14 n1 n2 n3 n4 n5 n6 n7 n8 n9 n10 n11 n12 n13 =>
    refine ⟨Keeps.refl _, hs, ?_⟩
    unfold decodeSwitch
    split <;> first | contradiction | rfl
  all_goals exact ⟨Keeps.refl _, { hs with }, rfl⟩

theorem snap_flags (h : PHeap) (s : PSnapshot) (o n : UInt32) : PSnapshot.load h.mem { s with observed := o, notFullyParsed := n }
    = { s.load h.mem with observed := o, notFullyParsed := n } := rfl

theorem loop_ok {lo : Nat} (as : List (Option PSlice)) : ∀ (t : Nat) (h : PHeap) (s : PSnapshot), lo ≤ h.brk → (∀ o ∈ as, ∀ x, o = some x → SIn lo h.brk x) → SnapIn lo h.brk s →
    match pDecodeLoop t as h s with
    | none => decodeLoop t (as.map (·.map (·.load h.mem))) (s.load h.mem) = none
    | some (h', s') => Keeps h h' ∧ SnapIn lo h'.brk s' ∧ decodeLoop t (as.map (·.map (·.load h.mem))) (s.load h.mem) = some (s'.load h'.mem) := by
  induction as with
  | nil => intro t h s _ _ hs; exact ⟨Keeps.refl _, hs, rfl⟩
  | cons o as ih =>
    intro t h s hlo ha hs
    cases o with
    | none => exact ih (t + 1) h s hlo (fun o ho => ha o (List.mem_cons_of_mem _ ho)) hs
    | some raw =>
      have hr := ha (some raw) (List.mem_cons_self ..) raw rfl
      have hsw := switch_ok (t := t) hlo hr hs
      simp only [pDecodeLoop, List.map_cons, Option.map_some, decodeLoop]
      have ev : (raw.load h.mem).val = raw.read h.mem := rfl
      rw [ev]
      cases e : pDecodeSwitch t raw h s with
      | none => rw [e] at hsw; simp only [SwitchRes] at hsw; simp only [hsw]
      | some x =>
        obtain ⟨h1, s1, ok⟩ := x
        rw [e] at hsw
        obtain ⟨k1, k2, k3⟩ := hsw
        simp only [k3]
        have hmap : as.map (·.map (·.load h.mem)) = as.map (·.map (·.load h1.mem)) := by
          refine List.map_congr_left (fun o ho => ?_)
          cases o with
          | none => rfl
          | some x => exact congrArg some (keeps_load k1 (ha (some x) (List.mem_cons_of_mem _ ho) x rfl)).symm
        have := ih (t + 1) h1 { s1 with observed := s1.observed ||| attrBit t, notFullyParsed := if ok then s1.notFullyParsed else s1.notFullyParsed ||| attrBit t }
          (Nat.le_trans hlo k1.1) (fun o ho x hx => (ha o (List.mem_cons_of_mem _ ho) x hx).mono k1.1) { k2 with }
        rw [hmap]
        revert this
        split
        · exact fun h => h
        · exact fun ⟨a, b, c⟩ => ⟨k1.trans a, b, c⟩

/-- All slices of a record are in the memory between `lo` and `brk`. -/
structure RecIn (lo brk : Nat) (p : PArchival) : Prop where
  raw : ∀ x, p.raw = some x → SIn lo brk x
  attrs : ∀ o ∈ p.attributes.getD [], ∀ x, o = some x → SIn lo brk x

theorem parseIDM_take {b : Bytes} {v : InetDiagMsg} (h : parseIDM b = .ok v) : 72 ≤ b.length ∧ parseIDM (b.take 72) = .ok v := by
  have hl : 72 ≤ b.length := by
    unfold parseIDM at h
    simp only at h
    split at h
    · simp at h
    · rename_i hn
      have : rtaAlignOf sizeofInetDiagMsg = 72 := by decide
      omega
  refine ⟨hl, ?_⟩
  have e : b = b.take 72 ++ b.drop 72 := (List.take_append_drop 72 b).symm
  have l1 : (b.take 72).length = 72 := by rw [List.length_take]; omega
  rw [← h]
  have hsub : ∀ o n, o + n ≤ 72 → sub o n (b.take 72) = sub o n b := by
    intro o n hon
    unfold sub
    rw [List.drop_take, List.take_take, Nat.min_eq_left (by omega)]
  have hget : ∀ i, i < 72 → (b.take 72).getD i 0 = b.getD i 0 := by
    intro i hi
    rw [List.getD_eq_getElem?_getD, List.getD_eq_getElem?_getD, List.getElem?_take_of_lt hi]
  unfold parseIDM
  have a : rtaAlignOf sizeofInetDiagMsg = 72 := by decide
  simp only [a]
  rw [if_neg (by omega), if_neg (by omega)]
  simp only [u8At, u32At, hsub _ _ (by omega : 4 + 48 ≤ 72)]
  simp [hsub]

theorem pDecode_ok {lo : Nat} {h : PHeap} {p : PArchival} (hlo : lo ≤ h.brk) (hp : RecIn lo h.brk p) :
    match pDecode h p with
    | .ok (h', md, s) => Keeps h h' ∧ SnapIn lo h'.brk s ∧ decode (p.load h.mem) = .ok (md, s.load h'.mem)
    | .err e => decode (p.load h.mem) = .err e
    | .panic => decode (p.load h.mem) = .panic := by
  have hat : (p.load h.mem).attrs = (p.attributes.getD []).map (·.map (·.load h.mem)) := by
    unfold ArchivalRecord.attrs PArchival.load
    cases p.attributes <;> rfl
  have fin : ∀ (idm : Option Nat) (v : Option InetDiagMsg), PIn lo h.brk 72 idm → idm.bind (idmAt h.mem) = v →
      match pDecodeLoop 0 (p.attributes.getD []) h { timestamp := p.timestamp, inetDiagMsg := idm } with
      | none => decodeLoop 0 (p.load h.mem).attrs { timestamp := (p.load h.mem).timestamp, inetDiagMsg := v } = none
      | some (h', s') => Keeps h h' ∧ SnapIn lo h'.brk s'
        ∧ decodeLoop 0 (p.load h.mem).attrs { timestamp := (p.load h.mem).timestamp, inetDiagMsg := v } = some (s'.load h'.mem) := by
    intro idm v hi hv
    have := loop_ok (p.attributes.getD []) 0 h { timestamp := p.timestamp, inetDiagMsg := idm } hlo hp.attrs
      ⟨hi, .none _ _ _, .none _ _ _, .none _ _ _, .none _ _ _, .none _ _ _, .none _ _ _⟩
    rw [hat, ← hv]
    exact this
  unfold pDecode decode
  by_cases h0 : p.metadata.isNone ∧ p.raw.isNone
  · rw [if_pos h0]
    have : (p.load h.mem).metadata = none ∧ (p.load h.mem).rawIDM = none := by
      obtain ⟨h1, h2⟩ := h0
      exact ⟨Option.isNone_iff_eq_none.1 h1, by simp [PArchival.load, Option.isNone_iff_eq_none.1 h2]⟩
    rw [if_pos this]
  · rw [if_neg h0]
    have : ¬ ((p.load h.mem).metadata = none ∧ (p.load h.mem).rawIDM = none) := by
      rintro ⟨h1, h2⟩
      refine h0 ⟨Option.isNone_iff_eq_none.2 h1, ?_⟩
      cases hr : p.raw with
      | none => rfl
      | some x => simp [PArchival.load, hr] at h2
    rw [if_neg this]
    cases hr : p.raw with
    | none =>
      have e : (p.load h.mem).rawIDM = none := by simp [PArchival.load, hr]
      simp only [e]
      have := fin none none (.none _ _ _) rfl
      revert this
      cases pDecodeLoop 0 (p.attributes.getD []) h { timestamp := p.timestamp, inetDiagMsg := none } with
      | none => intro h1; simp only [h1]
      | some x => obtain ⟨h1, s1⟩ := x; rintro ⟨a, b, c⟩; simp only [c]; exact ⟨a, b, rfl⟩
    | some raw =>
      have e : (p.load h.mem).rawIDM = some (raw.read h.mem) := by simp [PArchival.load, hr]
      simp only [e, pParseIDM]
      cases hq : parseIDM (raw.read h.mem) with
      | err e => simp only
      | panic => simp only
      | ok v =>
        simp only
        obtain ⟨q1, q2⟩ := parseIDM_take hq
        rw [read_length] at q1
        have hin := hp.raw raw hr
        have := fin (some raw.base) (some v) (fun a ha => by injection ha with ha; subst ha; have := hin.1; have := hin.2; exact ⟨hin.2.2, by omega⟩) (by
          show idmAt h.mem raw.base = some v
          unfold idmAt
          rw [← bytes_take h.mem raw.base raw.len 72 q1]
          rw [show h.mem.bytes raw.base raw.len = raw.read h.mem from rfl, q2])
        revert this
        cases pDecodeLoop 0 (p.attributes.getD []) h { timestamp := p.timestamp, inetDiagMsg := some raw.base } with
        | none => intro h1; simp only [h1]
        | some x => obtain ⟨h1, s1⟩ := x; rintro ⟨a, b, c⟩; simp only [c]; exact ⟨a, b, rfl⟩

theorem newSlice_ok (h : PHeap) (g : GoSlice) : Keeps h (pNewSlice h g).1 ∧ SIn h.brk (pNewSlice h g).1.brk (pNewSlice h g).2 ∧ (pNewSlice h g).2.load (pNewSlice h g).1.mem = g := by
  refine ⟨keeps_alloc _ _, ⟨by simp [pNewSlice], by simp [pNewSlice, PHeap.alloc], Nat.le_refl _⟩, ?_⟩
  have e := store_bytes h.mem h.brk (g.val ++ g.spare)
  have l : (g.val ++ g.spare).length = g.val.length + g.spare.length := by simp
  rw [l, bytes_append] at e
  obtain ⟨e1, e2⟩ := List.append_inj e (by rw [bytes_length])
  unfold PSlice.load PSlice.read PSlice.spare
  simp only [pNewSlice, PHeap.alloc, Nat.add_sub_cancel_left]
  rw [e1, e2]

theorem newSlices_ok (l : List (Option GoSlice)) : ∀ h : PHeap, Keeps h (pNewSlices h l).1 ∧ (∀ o ∈ (pNewSlices h l).2, ∀ x, o = some x → SIn h.brk (pNewSlices h l).1.brk x)
    ∧ (pNewSlices h l).2.map (·.map (·.load (pNewSlices h l).1.mem)) = l := by
  induction l with
  | nil => intro h; exact ⟨Keeps.refl _, fun _ ho => by simp [pNewSlices] at ho, rfl⟩
  | cons o l ih =>
    intro h
    cases o with
    | none =>
      obtain ⟨a, b, c⟩ := ih h
      refine ⟨a, ?_, ?_⟩
      · intro o ho x hx
        simp only [pNewSlices, List.mem_cons] at ho
        rcases ho with rfl | ho
        · simp at hx
        · exact b o ho x hx
      · simp only [pNewSlices, List.map_cons, Option.map_none, c]
    | some g =>
      obtain ⟨a1, a2, a3⟩ := newSlice_ok h g
      obtain ⟨b1, b2, b3⟩ := ih (pNewSlice h g).1
      refine ⟨a1.trans b1, ?_, ?_⟩
      · intro o ho x hx
        simp only [pNewSlices, List.mem_cons] at ho
        rcases ho with rfl | ho
        · injection hx with hx; subst hx; exact a2.mono b1.1
        · exact (b2 o ho x hx).low a1.1
      · simp only [pNewSlices, List.map_cons, Option.map_some, b3, keeps_load b1 a2, a3]

theorem newRecord_ok (h : PHeap) (r : ArchivalRecord) : Keeps h (pNewRecord h r).1 ∧ RecIn h.brk (pNewRecord h r).1.brk (pNewRecord h r).2
    ∧ (pNewRecord h r).2.load (pNewRecord h r).1.mem = r := by
  obtain ⟨ts, raw, at', md⟩ := r
  cases raw with
  | none =>
    cases at' with
    | none => exact ⟨Keeps.refl _, ⟨fun x hx => by simp [pNewRecord] at hx, fun o ho => by simp [pNewRecord] at ho⟩, rfl⟩
    | some l =>
      obtain ⟨b1, b2, b3⟩ := newSlices_ok l h
      exact ⟨b1, ⟨fun x hx => by simp [pNewRecord] at hx, b2⟩, by simp only [pNewRecord, PArchival.load, Option.map_some, Option.map_none, b3]⟩
  | some b =>
    obtain ⟨a1, a2, a3⟩ := newSlice_ok h ⟨b, []⟩
    have a4 : (pNewSlice h ⟨b, []⟩).2.read (pNewSlice h ⟨b, []⟩).1.mem = b := congrArg GoSlice.val a3
    cases at' with
    | none =>
      exact ⟨a1, ⟨fun x hx => by injection hx with hx; subst hx; exact a2, fun o ho => by simp [pNewRecord] at ho⟩,
        by simp only [pNewRecord, PArchival.load, Option.map_some, Option.map_none, a4]⟩
    | some l =>
      obtain ⟨b1, b2, b3⟩ := newSlices_ok l (pNewSlice h ⟨b, []⟩).1
      exact ⟨a1.trans b1, ⟨fun x hx => by injection hx with hx; subst hx; exact a2.mono b1.1, fun o ho x hx => (b2 o ho x hx).low a1.1⟩,
        by simp only [pNewRecord, PArchival.load, Option.map_some, b3, keeps_read b1 a2, a4]⟩

theorem pReaderNext_ok (h : PHeap) (r : ArchivalRecord) :
    match pReaderNext h r with
    | .ok (h', md, s) => Keeps h h' ∧ SnapIn h.brk h'.brk s ∧ readerNext r = .ok (md, s.load h'.mem)
    | .err e => readerNext r = .err e
    | .panic => readerNext r = .panic := by
  obtain ⟨a1, a2, a3⟩ := newRecord_ok h r
  have key : ∀ p : PArchival, RecIn h.brk (pNewRecord h r).1.brk p →
      p.load (pNewRecord h r).1.mem = (if r.timestamp = goZeroTime then { r with timestamp := hackTime } else r) →
      match pDecode (pNewRecord h r).1 p with
      | .ok (h', md, s) => Keeps h h' ∧ SnapIn h.brk h'.brk s ∧ readerNext r = .ok (md, s.load h'.mem)
      | .err e => readerNext r = .err e
      | .panic => readerNext r = .panic := by
    intro p hp hl
    have := pDecode_ok a1.1 hp
    rw [hl] at this
    unfold readerNext
    revert this
    split
    · exact fun ⟨b1, b2, b3⟩ => ⟨a1.trans b1, b2, b3⟩
    · exact fun h => h
    · exact fun h => h
  unfold pReaderNext
  simp only
  by_cases ht : r.timestamp = goZeroTime
  · rw [if_pos ht] at key ⊢
    refine key _ { a2 with } ?_
    have : ∀ (p : PArchival) (m : Mem), PArchival.load m { p with timestamp := hackTime } = { p.load m with timestamp := hackTime } := fun _ _ => rfl
    rw [this, a3]
  · rw [if_neg ht] at key ⊢
    exact key _ a2 a3

/-- All structs of one snapshot are below all structs of the other one. -/
def SnapApart (a b : PSnapshot) : Prop := ∃ mid, (∃ lo, SnapIn lo mid a) ∧ (∃ hi, SnapIn mid hi b)

theorem loadAll_ok (fin : Option GoErr) (rs : List ArchivalRecord) : ∀ (h : PHeap) (md : Option Metadata) (snaps : List PSnapshot), (∀ s ∈ snaps, SnapIn 0 h.brk s) → snaps.Pairwise SnapApart →
    match pLoadAllLoop fin rs h md snaps with
    | .ok (h', md', l) => Keeps h h' ∧ (∀ s ∈ l, SnapIn 0 h'.brk s) ∧ l.Pairwise SnapApart ∧ loadAllLoop fin rs md (snaps.map (·.load h.mem)) = .ok (md', l.map (·.load h'.mem))
    | .err e => loadAllLoop fin rs md (snaps.map (·.load h.mem)) = .err e
    | .panic => loadAllLoop fin rs md (snaps.map (·.load h.mem)) = .panic := by
  induction rs with
  | nil =>
    intro h md snaps hs hpw
    simp only [pLoadAllLoop, loadAllLoop]
    cases fin with
    | none => rfl
    | some e =>
      by_cases he : e = .eof
      · subst he; exact ⟨Keeps.refl _, hs, hpw, rfl⟩
      · cases e <;> first | exact absurd rfl he | rfl
  | cons r rs ih =>
    intro h md snaps hs hpw
    have hn := pReaderNext_ok h r
    simp only [pLoadAllLoop, loadAllLoop]
    cases e : pReaderNext h r with
    | panic => rw [e] at hn; simp only [hn]
    | err e' =>
      rw [e] at hn
      simp only [hn]
      by_cases he : e' = .eof
      · rw [if_pos he, if_pos he]; exact ⟨Keeps.refl _, hs, hpw, rfl⟩
      · rw [if_neg he, if_neg he]
    | ok x =>
      obtain ⟨h1, m, s⟩ := x
      rw [e] at hn
      obtain ⟨a1, a2, a3⟩ := hn
      simp only [a3]
      have hmap : snaps.map (·.load h.mem) ++ [s.load h1.mem] = (snaps ++ [s]).map (·.load h1.mem) := by
        rw [List.map_append]
        congr 1
        exact List.map_congr_left (fun x hx => (snap_keeps a1 (hs x hx)).symm)
      rw [hmap]
      have := ih h1 (if m = none then md else m) (snaps ++ [s]) (fun x hx => by
        rcases List.mem_append.1 hx with hx | hx
        · exact (hs x hx).mono a1.1
        · rw [List.mem_singleton] at hx; subst hx; exact a2.low (Nat.zero_le _))
        (List.pairwise_append.2 ⟨hpw, List.pairwise_singleton _ _, fun a ha b hb => by
          rw [List.mem_singleton] at hb; subst hb; exact ⟨h.brk, ⟨0, hs a ha⟩, ⟨_, a2⟩⟩⟩)
      revert this
      split
      · exact fun ⟨b1, b2, b3⟩ => ⟨a1.trans b1, b2, b3⟩
      · exact fun h => h
      · exact fun h => h

/-! ## Which struct is where -/

/-- What one round of the loop does to the pointers. -/
theorem switch_ptr {t : Nat} {raw : PSlice} {h h' : PHeap} {s s' : PSnapshot} {ok : Bool} (e : pDecodeSwitch t raw h s = some (h', s', ok)) :
    s'.inetDiagMsg = s.inetDiagMsg ∧ h.brk ≤ h'.brk ∧ (∀ k, k ≠ t → s'.ptr k = s.ptr k)
      ∧ (0 < structSize t → s'.ptr t = some (if raw.len < structSize t then h.brk else raw.base)) := by
  have put : ∀ (g : GoStruct) (set : Nat → PSnapshot), some (pPutStruct h raw g set) = some (h', s', ok) → goSizeof g = structSize t →
      (∀ a, (set a).inetDiagMsg = s.inetDiagMsg) → (∀ a k, k ≠ t → (set a).ptr k = s.ptr k) → (∀ a, (set a).ptr t = some a) →
      s'.inetDiagMsg = s.inetDiagMsg ∧ h.brk ≤ h'.brk ∧ (∀ k, k ≠ t → s'.ptr k = s.ptr k)
      ∧ (0 < structSize t → s'.ptr t = some (if raw.len < structSize t then h.brk else raw.base)) := by
    intro g set e eg h1 h2 h3
    injection e with e
    have e1 : (pMaybeCopy h raw (goSizeof g)).1 = h' := congrArg Prod.fst e
    have e2 : set (pMaybeCopy h raw (goSizeof g)).2.1 = s' := congrArg (fun x => x.2.1) e
    rw [← e2, ← e1]
    refine ⟨h1 _, ?_, fun k hk => h2 _ k hk, fun _ => ?_⟩
    · unfold pMaybeCopy
      split
      · exact Nat.le_add_right _ _
      · exact Nat.le_refl _
    · rw [h3, ← eg]
      unfold pMaybeCopy
      split <;> rfl
  have sc : ∀ (h1 : PHeap) (s1 : PSnapshot) (b : Bool), some (h1, s1, b) = some (h', s', ok) → structSize t = 0 → h1 = h → s1.inetDiagMsg = s.inetDiagMsg → (∀ k, s1.ptr k = s.ptr k) →
      s'.inetDiagMsg = s.inetDiagMsg ∧ h.brk ≤ h'.brk ∧ (∀ k, k ≠ t → s'.ptr k = s.ptr k)
      ∧ (0 < structSize t → s'.ptr t = some (if raw.len < structSize t then h.brk else raw.base)) := by
    intro h1 s1 b e e0 eh ei ep
    injection e with e
    injection e with e1 e
    injection e with e2 e3
    subst e1; subst e2; subst eh
    exact ⟨ei, Nat.le_refl _, fun k _ => ep k, fun hp => by omega⟩
  have other : ∀ {f g : Nat → Option Nat}, (∀ k, f k = g k) → ∀ k, f k = g k := fun h => h
  unfold pDecodeSwitch at e
  split at e
  case h_4 =>
    cases e4 : congestionAlgorithm (raw.read h.mem) with
    | none => rw [e4] at e; simp at e
    | some r => rw [e4] at e; exact sc _ _ _ e rfl rfl rfl (fun k => by unfold PSnapshot.ptr; rfl)
  case h_1 => exact put _ _ e rfl (fun _ => rfl) (fun a k hk => by unfold PSnapshot.ptr; split <;> first | contradiction | rfl) (fun _ => rfl)
  case h_2 => exact put _ _ e (by unfold structSize; rfl) (fun _ => rfl) (fun a k hk => by unfold PSnapshot.ptr; split <;> first | contradiction | rfl) (fun _ => rfl)
  case h_3 => exact put _ _ e rfl (fun _ => rfl) (fun a k hk => by unfold PSnapshot.ptr; split <;> first | contradiction | rfl) (fun _ => rfl)
  case h_7 => exact put _ _ e rfl (fun _ => rfl) (fun a k hk => by unfold PSnapshot.ptr; split <;> first | contradiction | rfl) (fun _ => rfl)
  case h_9 => exact put _ _ e rfl (fun _ => rfl) (fun a k hk => by unfold PSnapshot.ptr; split <;> first | contradiction | rfl) (fun _ => rfl)
  case h_12 => exact put _ _ e rfl (fun _ => rfl) (fun a k hk => by unfold PSnapshot.ptr; split <;> first | contradiction | rfl) (fun _ => rfl)
  case h_14 n1 n2 n3 n4 n5 n6 n7 n8 n9 n10 n11 n12 n13 =>
    refine sc _ _ _ e ?_ rfl rfl (fun _ => rfl)
    unfold structSize
    split <;> first | contradiction | rfl
  all_goals exact sc _ _ _ e rfl rfl rfl (fun k => by unfold PSnapshot.ptr; rfl)

theorem loop_ptr (as : List (Option PSlice)) : ∀ (t : Nat) (h h' : PHeap) (s s' : PSnapshot), pDecodeLoop t as h s = some (h', s') →
    s'.inetDiagMsg = s.inetDiagMsg ∧ h.brk ≤ h'.brk ∧ (∀ k, k < t → s'.ptr k = s.ptr k)
      ∧ (∀ k, 0 < structSize (t + k) → match as[k]?.join with
        | none => s'.ptr (t + k) = s.ptr (t + k)
        | some sl => if sl.len < structSize (t + k) then ∃ a, s'.ptr (t + k) = some a ∧ h.brk ≤ a else s'.ptr (t + k) = some sl.base) := by
  induction as with
  | nil =>
    intro t h h' s s' e
    simp only [pDecodeLoop, Option.some.injEq, Prod.mk.injEq] at e
    obtain ⟨rfl, rfl⟩ := e
    exact ⟨rfl, Nat.le_refl _, fun _ _ => rfl, fun k _ => by simp⟩
  | cons o as ih =>
    intro t h h' s s' e
    cases o with
    | none =>
      obtain ⟨a1, a2, a3, a4⟩ := ih (t + 1) h h' s s' e
      refine ⟨a1, a2, fun k hk => a3 k (by omega), fun k hk => ?_⟩
      cases k with
      | zero => simpa using a3 t (by omega)
      | succ k =>
        have := a4 k (by rw [show t + 1 + k = t + (k + 1) by omega]; exact hk)
        rw [show t + 1 + k = t + (k + 1) by omega] at this
        simpa using this
    | some raw =>
      simp only [pDecodeLoop] at e
      cases e1 : pDecodeSwitch t raw h s with
      | none => rw [e1] at e; simp at e
      | some x =>
        obtain ⟨h1, s1, ok⟩ := x
        rw [e1] at e
        simp only at e
        obtain ⟨b1, b2, b3, b4⟩ := switch_ptr e1
        obtain ⟨a1, a2, a3, a4⟩ := ih (t + 1) h1 h' _ s' e
        have flags : ∀ k o n, PSnapshot.ptr { s1 with observed := o, notFullyParsed := n } k = s1.ptr k := fun k o n => by unfold PSnapshot.ptr; rfl
        simp only [flags] at a3 a4
        refine ⟨a1.trans b1, Nat.le_trans b2 a2, fun k hk => (a3 k (by omega)).trans (b3 k (by omega)), fun k hk => ?_⟩
        cases k with
        | zero =>
          have hk' : 0 < structSize t := hk
          have e2 := (a3 t (by omega)).trans (b4 hk')
          simp only [List.getElem?_cons_zero, Option.join_some, Nat.add_zero]
          split
          · rename_i hl
            rw [if_pos hl] at e2
            exact ⟨_, e2, Nat.le_refl _⟩
          · rename_i hl
            rw [if_neg hl] at e2
            exact e2
        | succ k =>
          have := a4 k (by rw [show t + 1 + k = t + (k + 1) by omega]; exact hk)
          rw [show t + 1 + k = t + (k + 1) by omega] at this
          rw [List.getElem?_cons_succ]
          revert this
          split
          · intro h2; rw [h2, b3 _ (by omega)]
          · split
            · exact fun ⟨a, h2, h3⟩ => ⟨a, h2, Nat.le_trans b2 h3⟩
            · exact fun h => h

end TcpInfo
