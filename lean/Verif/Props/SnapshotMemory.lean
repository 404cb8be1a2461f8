import Verif.Spec.SnapshotMemory
import Verif.Lemmas.SnapshotMemory
import Verif.Props.Memory
import Verif.Props.Snapshot
/-!
# C110: snapshots read from an archive have memory of their own; C111: a snapshot decoded from a record shares the record's memory
-/

namespace TcpInfo
open Spec

theorem structAt_ptr (s : PSnapshot) (k : Nat) : structAt s k = s.ptr k := rfl

theorem lens_size {k n : Nat} (h : (k, n) ∈ structLens) : structSize k = n ∧ 0 < n := by
  simp only [structLens, List.mem_cons, Prod.mk.injEq, List.not_mem_nil, or_false] at h
  rcases h with ⟨rfl, rfl⟩ | ⟨rfl, rfl⟩ | ⟨rfl, rfl⟩ | ⟨rfl, rfl⟩ | ⟨rfl, rfl⟩ | ⟨rfl, rfl⟩ <;> decide +kernel

theorem structOf_load (m : Mem) (s : PSnapshot) {k n : Nat} (h : (k, n) ∈ structLens) : structOf (s.load m) k = (s.ptr k).map (fun a => m.bytes a n) := by
  have e := (lens_size h).1
  simp only [structLens, List.mem_cons, Prod.mk.injEq, List.not_mem_nil, or_false] at h
  rcases h with ⟨rfl, _⟩ | ⟨rfl, _⟩ | ⟨rfl, _⟩ | ⟨rfl, _⟩ | ⟨rfl, _⟩ | ⟨rfl, _⟩ <;> rw [← e] <;> unfold structSize <;> rfl

/-- The value of a snapshot depends only on the bytes of its structs. -/
theorem snap_congr (m m' : Mem) (s : PSnapshot) (h : ∀ x, InStruct s x → m' x = m x) : s.load m' = s.load m := by
  have e : ∀ k n, (k, n) ∈ structLens → (s.ptr k).map (fun a => m'.bytes a n) = (s.ptr k).map (fun a => m.bytes a n) := by
    intro k n hk
    cases hp : s.ptr k with
    | none => rfl
    | some a => exact congrArg some (bytes_congr _ _ _ _ (fun x h1 h2 => h x (Or.inr ⟨k, n, a, hk, hp, h1, h2⟩)))
  have ei : s.inetDiagMsg.bind (idmAt m') = s.inetDiagMsg.bind (idmAt m) := by
    cases hi : s.inetDiagMsg with
    | none => rfl
    | some a =>
      show idmAt m' a = idmAt m a
      unfold idmAt
      rw [bytes_congr m m' a 72 (fun x h1 h2 => h x (Or.inl ⟨a, hi, h1, h2⟩))]
  have z : goSizeof goMemInfo = 16 ∧ goSizeof goTCPInfo = 232 ∧ goSizeof goVegasInfo = 16 ∧ goSizeof goSocketMemInfo = 36 ∧ goSizeof goDCTCPInfo = 16 ∧ goSizeof goBBRInfo = 24 := by
    decide +kernel
  obtain ⟨z1, z2, z3, z4, z5, z6⟩ := z
  have e1 := e 1 16 (by simp [structLens])
  have e2 := e 2 232 (by simp [structLens])
  have e3 := e 3 16 (by simp [structLens])
  have e4 := e 7 36 (by simp [structLens])
  have e5 := e 9 16 (by simp [structLens])
  have e6 := e 16 24 (by simp [structLens])
  simp only [PSnapshot.ptr] at e1 e2 e3 e4 e5 e6
  unfold PSnapshot.load
  rw [z1, z2, z3, z4, z5, z6, ei, e1, e2, e3, e4, e5, e6]

theorem inStruct_bounds {lo hi : Nat} {s : PSnapshot} (h : SnapIn lo hi s) {x : Nat} (hx : InStruct s x) : lo ≤ x ∧ x < hi := by
  rcases hx with ⟨a, h1, h2, h3⟩ | ⟨k, n, a, h1, h2, h3, h4⟩
  · have := h.idm a h1; omega
  · have hn := (lens_size h1).1
    rw [structAt_ptr] at h2
    have : lo ≤ a ∧ a + structSize k ≤ hi := by
      simp only [structLens, List.mem_cons, Prod.mk.injEq, List.not_mem_nil, or_false] at h1
      rcases h1 with ⟨rfl, _⟩ | ⟨rfl, _⟩ | ⟨rfl, _⟩ | ⟨rfl, _⟩ | ⟨rfl, _⟩ | ⟨rfl, _⟩
      · exact h.mem a h2
      · exact h.tcp a h2
      · exact h.vegas a h2
      · exact h.sock a h2
      · exact h.dctcp a h2
      · exact h.bbr a h2
    omega

theorem structs_decoded {r : ArchivalRecord} {md : Option Metadata} {s : Snapshot} (h : decode r = .ok (md, s)) {k n : Nat} (hk : (k, n) ∈ structLens) :
    structOf s k = (attr r k).map (fun a => (maybeCopy a n).1) := by
  obtain ⟨h1, h2, h3, h4, h5, h6, -⟩ := decode_fields r md s h
  have z : goSizeof goMemInfo = 16 ∧ goSizeof goTCPInfo = 232 ∧ goSizeof goVegasInfo = 16 ∧ goSizeof goSocketMemInfo = 36 ∧ goSizeof goDCTCPInfo = 16 ∧ goSizeof goBBRInfo = 24 := by
    decide +kernel
  obtain ⟨z1, z2, z3, z4, z5, z6⟩ := z
  rw [z1] at h1; rw [z2] at h2; rw [z3] at h3; rw [z4] at h4; rw [z5] at h5; rw [z6] at h6
  simp only [structLens, List.mem_cons, Prod.mk.injEq, List.not_mem_nil, or_false] at hk
  rcases hk with ⟨rfl, rfl⟩ | ⟨rfl, rfl⟩ | ⟨rfl, rfl⟩ | ⟨rfl, rfl⟩ | ⟨rfl, rfl⟩ | ⟨rfl, rfl⟩
  · exact h1
  · exact h2
  · exact h3
  · exact h4
  · exact h5
  · exact h6

/-! ## C110 -/

/-- C110. `Reader.Next`: the snapshot has the value that the rest of this model says it has; its structs are in memory that was not in use before, and nothing that was in use is
written. So it has this value for as long as nobody writes to its own structs. -/
theorem C110_next (h h' : PHeap) (r : ArchivalRecord) (md : Option Metadata) (s : PSnapshot) (e : pReaderNext h r = .ok (h', md, s)) :
    (∀ x, x < h.brk → h'.mem x = h.mem x) ∧ (∀ x, InStruct s x → h.brk ≤ x)
      ∧ ∀ m, (∀ x, InStruct s x → m x = h'.mem x) → readerNext r = .ok (md, s.load m) := by
  have := pReaderNext_ok h r
  rw [e] at this
  obtain ⟨a1, a2, a3⟩ := this
  exact ⟨a1.2, fun x hx => (inStruct_bounds a2 hx).1, fun m hm => by rw [a3, snap_congr _ _ _ hm]⟩

/-- C110. `LoadAll`: when it returns, all snapshots have the values that they had when they were read. -/
theorem C110_load_all (src : RecordStream) (h : PHeap) :
    (pLoadAllLoop src.fin src.records h none []).mapVal (fun r => (r.2.1, r.2.2.map (·.load r.1.mem))) = loadAll src := by
  have := loadAll_ok src.fin src.records h none [] (fun _ hs => by simp at hs) List.Pairwise.nil
  unfold loadAll
  revert this
  split
  · rename_i e'; rintro ⟨_, _, _, e⟩; rw [e']; exact e.symm
  · intro e; rename_i e'; rw [e']; exact e.symm
  · intro e; rename_i e'; rw [e']; exact e.symm

/-- C110. Whoever changes one of the snapshots that `LoadAll` has returned changes no other one. -/
theorem C110_independent (src : RecordStream) (h h' : PHeap) (md : Option Metadata) (l : List PSnapshot)
    (e : pLoadAllLoop src.fin src.records h none [] = .ok (h', md, l)) (i j : Nat) (hij : i ≠ j) (s s' : PSnapshot) (hi : l[i]? = some s) (hj : l[j]? = some s')
    (m : Mem) (hm : ∀ x, ¬ InStruct s x → m x = h'.mem x) : s'.load m = s'.load h'.mem := by
  have := loadAll_ok src.fin src.records h none [] (fun _ hs => by simp at hs) List.Pairwise.nil
  rw [e] at this
  obtain ⟨_, _, hp, _⟩ := this
  refine snap_congr _ _ _ (fun x hx => hm x (fun hx' => ?_))
  obtain ⟨li, hi⟩ := List.getElem?_eq_some_iff.1 hi
  obtain ⟨lj, hj⟩ := List.getElem?_eq_some_iff.1 hj
  rcases Nat.lt_or_gt_of_ne hij with hlt | hlt
  · have := List.pairwise_iff_getElem.1 hp i j li lj hlt
    rw [hi, hj] at this
    obtain ⟨mid, ⟨lo, h1⟩, ⟨up, h2⟩⟩ := this
    have := inStruct_bounds h1 hx'
    have := inStruct_bounds h2 hx
    omega
  · have := List.pairwise_iff_getElem.1 hp j i lj li hlt
    rw [hi, hj] at this
    obtain ⟨mid, ⟨lo, h1⟩, ⟨up, h2⟩⟩ := this
    have := inStruct_bounds h1 hx
    have := inStruct_bounds h2 hx'
    omega

/-! ## C111 -/

theorem recordIn_recIn {h : PHeap} {r : PArchival} (hr : RecordIn h r) : RecIn 0 h.brk r :=
  ⟨fun x hx => ⟨(hr.1 x hx).1, (hr.1 x hx).2, Nat.zero_le _⟩, fun o ho x hx => by subst hx; exact ⟨(hr.2 x ho).1, (hr.2 x ho).2, Nat.zero_le _⟩⟩

/-- C111. `Decode` gives the snapshot that the rest of this model says, and writes only to memory that was not in use. -/
theorem C111_value (h h' : PHeap) (r : PArchival) (hr : RecordIn h r) (md : Option Metadata) (s : PSnapshot) (e : pDecode h r = .ok (h', md, s)) :
    decode (r.load h.mem) = .ok (md, s.load h'.mem) ∧ r.load h'.mem = r.load h.mem ∧ ∀ x, x < h.brk → h'.mem x = h.mem x := by
  have hi := recordIn_recIn hr
  have := pDecode_ok (Nat.zero_le _) hi
  rw [e] at this
  obtain ⟨a1, _, a3⟩ := this
  refine ⟨a3, ?_, a1.2⟩
  have e1 : r.raw.map (·.read h'.mem) = r.raw.map (·.read h.mem) := by
    cases hw : r.raw with
    | none => rfl
    | some x => exact congrArg some (keeps_read a1 (hi.raw x hw))
  have e2 : r.attributes.map (·.map (·.map (·.load h'.mem))) = r.attributes.map (·.map (·.map (·.load h.mem))) := by
    cases hw : r.attributes with
    | none => rfl
    | some l =>
      refine congrArg some (List.map_congr_left (fun o ho => ?_))
      cases o with
      | none => rfl
      | some x => exact congrArg some (keeps_load a1 (hi.attrs (some x) (by rw [hw]; exact ho) x rfl))
  unfold PArchival.load
  rw [e1, e2]

theorem decode_parts {h h' : PHeap} {r : PArchival} {md : Option Metadata} {s : PSnapshot} (e : pDecode h r = .ok (h', md, s)) :
    ∃ idm, pDecodeLoop 0 (r.attributes.getD []) h { timestamp := r.timestamp, inetDiagMsg := idm } = some (h', s)
      ∧ (∀ raw, r.raw = some raw → idm = some raw.base ∧ ∃ v, parseIDM (raw.read h.mem) = .ok v) ∧ (r.raw = none → idm = none) := by
  unfold pDecode at e
  split at e
  · simp at e
  · simp only at e
    cases hr : r.raw with
    | none =>
      rw [hr] at e
      simp only at e
      refine ⟨none, ?_, fun raw h => by simp at h, fun _ => rfl⟩
      split at e
      · simp at e
      · rename_i e'
        simp only [Res.ok.injEq, Prod.mk.injEq] at e
        obtain ⟨rfl, _, rfl⟩ := e
        exact e'
    | some raw =>
      rw [hr] at e
      simp only [pParseIDM] at e
      cases hv : parseIDM (raw.read h.mem) with
      | err x => rw [hv] at e; simp at e
      | panic => rw [hv] at e; simp at e
      | ok v =>
        rw [hv] at e
        simp only at e
        refine ⟨some raw.base, ?_, fun raw' h => by injection h with h; subst h; exact ⟨rfl, v, hv⟩, fun h => by simp at h⟩
        split at e
        · simp at e
        · rename_i e'
          simp only [Res.ok.injEq, Prod.mk.injEq] at e
          obtain ⟨rfl, _, rfl⟩ := e
          exact e'

/-- C111. What is seen in the snapshot at any later time, in memory `m`, if only the record was written to since. The header is that of the record as it is now. So is a struct whose
attribute is at least as long as the struct. A struct whose attribute is shorter is what the attribute was when it was decoded, and zeros. All else is as it was. -/
theorem C111_later (h h' : PHeap) (r : PArchival) (hr : RecordIn h r) (md : Option Metadata) (s : PSnapshot) (e : pDecode h r = .ok (h', md, s)) (m : Mem)
    (hm : ∀ x, h.brk ≤ x → x < h'.brk → m x = h'.mem x) :
    (∀ k n, (k, n) ∈ structLens → structOf (s.load m) k
        = (r.attributes.getD [])[k]?.join.map (fun a => if a.len < n then padded (a.read h.mem) n else (a.read m).take n))
      ∧ (s.load m).inetDiagMsg = r.raw.bind (fun raw => match parseIDM (raw.read m) with | .ok v => some v | _ => none)
      ∧ s.load m = { s.load h'.mem with
          inetDiagMsg := (s.load m).inetDiagMsg, tcpInfo := (s.load m).tcpInfo, memInfo := (s.load m).memInfo, socketMem := (s.load m).socketMem
          vegasInfo := (s.load m).vegasInfo, dctcpInfo := (s.load m).dctcpInfo, bbrInfo := (s.load m).bbrInfo } := by
  have hi := recordIn_recIn hr
  obtain ⟨idm, el, hraw, hnone⟩ := decode_parts e
  obtain ⟨p1, p2, _, p4⟩ := loop_ptr _ _ _ _ _ _ el
  have hin := pDecode_ok (Nat.zero_le _) hi
  rw [e] at hin
  obtain ⟨k1, k2, k3⟩ := hin
  refine ⟨fun k n hk => ?_, ?_, rfl⟩
  · obtain ⟨z1, z2⟩ := lens_size hk
    rw [structOf_load _ _ hk]
    have := p4 k (by rw [Nat.zero_add, z1]; exact z2)
    rw [Nat.zero_add, z1] at this
    have hn : PSnapshot.ptr { timestamp := r.timestamp, inetDiagMsg := idm } k = none := by unfold PSnapshot.ptr; split <;> rfl
    rw [hn] at this
    cases ha : (r.attributes.getD [])[k]?.join with
    | none => rw [ha] at this; simp only at this; rw [this]; rfl
    | some a =>
      have hmem : some a ∈ r.attributes.getD [] := by
        cases hg : (r.attributes.getD [])[k]? with
        | none => rw [hg] at ha; simp at ha
        | some o => rw [hg] at ha; simp only [Option.join_some] at ha; subst ha; exact List.mem_of_getElem? hg
      have hb := hr.2 a hmem
      rw [ha] at this
      simp only at this
      simp only [Option.map_some]
      by_cases hl : a.len < n
      · rw [if_pos hl] at this ⊢
        obtain ⟨b, hb1, hb2⟩ := this
        rw [hb1, Option.map_some]
        congr 1
        have hbn : b + n ≤ h'.brk := by
          by_cases hz : b + n ≤ h'.brk
          · exact hz
          · have := (inStruct_bounds k2 (Or.inr ⟨k, n, b, hk, hb1, by omega, by omega⟩ : InStruct s (b + n - 1))).2
            omega
        rw [bytes_congr h'.mem m b n (fun x h1 h2 => hm x (by omega) (by omega))]
        have hv := structs_decoded k3 hk
        rw [structOf_load _ _ hk, hb1] at hv
        have hat : attr (r.load h.mem) k = some (a.read h.mem) := by
          have : ((r.load h.mem).attributes.getD [])[k]? = (r.attributes.getD [])[k]?.map (·.map (·.load h.mem)) := by
            unfold PArchival.load
            cases r.attributes <;> simp
          unfold attr
          rw [this]
          cases hg : (r.attributes.getD [])[k]? with
          | none => rw [hg] at ha; simp at ha
          | some o => rw [hg] at ha; simp only [Option.join_some] at ha; subst ha; rfl
        rw [hat] at hv
        simp only [Option.map_some, Option.some.injEq] at hv
        rw [hv]
        unfold maybeCopy padded
        rw [read_length, if_pos hl]
      · rw [if_neg hl] at this ⊢
        rw [this, Option.map_some]
        exact congrArg some (bytes_take _ _ _ _ (by omega)).symm
  · show s.inetDiagMsg.bind (idmAt m) = _
    rw [p1]
    cases hw : r.raw with
    | none => rw [hnone hw]; rfl
    | some raw =>
      obtain ⟨h1, v, h2⟩ := hraw raw hw
      rw [h1]
      show idmAt m raw.base = _
      simp only [Option.bind_some]
      obtain ⟨q1, _⟩ := parseIDM_take h2
      rw [read_length] at q1
      unfold idmAt
      have hq : ∃ v, parseIDM (raw.read m) = .ok v := by
        unfold parseIDM
        simp only
        rw [if_neg (by rw [read_length, show rtaAlignOf sizeofInetDiagMsg = 72 by decide]; omega)]
        exact ⟨_, rfl⟩
      obtain ⟨v', hv'⟩ := hq
      obtain ⟨_, q2⟩ := parseIDM_take hv'
      rw [← bytes_take m raw.base raw.len 72 q1, show m.bytes raw.base raw.len = raw.read m from rfl, q2, hv']

/-- C111. As long as nobody writes to the record, the snapshot has the value that `Decode` returned. Missing: that it has this value whatever is written to the record
(`C111_violated`). -/
theorem C111_kept_partial (h h' : PHeap) (r : PArchival) (hr : RecordIn h r) (md : Option Metadata) (s : PSnapshot) (e : pDecode h r = .ok (h', md, s)) (m : Mem)
    (hm : ∀ x, InRecord r x ∨ h.brk ≤ x ∧ x < h'.brk → m x = h'.mem x) : decode (r.load h.mem) = .ok (md, s.load m) := by
  have hv := (C111_value h h' r hr md s e).1
  obtain ⟨idm, el, hraw, hnone⟩ := decode_parts e
  obtain ⟨p1, p2, _, p4⟩ := loop_ptr _ _ _ _ _ _ el
  have hin := pDecode_ok (Nat.zero_le _) (recordIn_recIn hr)
  rw [e] at hin
  obtain ⟨_, k2, _⟩ := hin
  rw [hv]
  congr 2
  refine (snap_congr _ _ _ (fun x hx => hm x ?_)).symm
  rcases hx with ⟨a, h1, h2, h3⟩ | ⟨k, n, a, h1, h2, h3, h4⟩
  · left; left
    rw [p1] at h1
    cases hw : r.raw with
    | none => rw [hnone hw] at h1; simp at h1
    | some raw =>
      obtain ⟨q1, v, q2⟩ := hraw raw hw
      simp only [q1, Option.some.injEq] at h1
      have := (parseIDM_take q2).1
      rw [read_length] at this
      exact ⟨raw, rfl, by omega, by omega⟩
  · obtain ⟨z1, z2⟩ := lens_size h1
    have := p4 k (by rw [Nat.zero_add, z1]; exact z2)
    rw [Nat.zero_add, z1] at this
    rw [structAt_ptr] at h2
    have hn : PSnapshot.ptr { timestamp := r.timestamp, inetDiagMsg := idm } k = none := by unfold PSnapshot.ptr; split <;> rfl
    rw [hn, h2] at this
    cases ha : (r.attributes.getD [])[k]?.join with
    | none => rw [ha] at this; simp at this
    | some sl =>
      have hmem : some sl ∈ r.attributes.getD [] := by
        cases hg : (r.attributes.getD [])[k]? with
        | none => rw [hg] at ha; simp at ha
        | some o => rw [hg] at ha; simp only [Option.join_some] at ha; subst ha; exact List.mem_of_getElem? hg
      rw [ha] at this
      simp only at this
      split at this
      · right
        obtain ⟨b, hb1, hb2⟩ := this
        injection hb1 with hb1
        have := (inStruct_bounds k2 (Or.inr ⟨k, n, a, h1, h2, h3, h4⟩ : InStruct s x)).2
        exact ⟨by omega, this⟩
      · left; right
        injection this with this
        exact ⟨sl, hmem, by omega, by omega⟩

/-- C111. If the header of the record is anonymized afterwards, as the collector's marshallers do, then the snapshot has the anonymized header too; all else in it is as it was. -/
theorem C111_anonymized (h h' : PHeap) (r : PArchival) (hr : RecordIn h r) (md : Option Metadata) (s : PSnapshot) (e : pDecode h r = .ok (h', md, s)) (raw : PSlice)
    (hraw : r.raw = some raw) (hd : ∀ a, some a ∈ r.attributes.getD [] → a.base + a.len ≤ raw.base ∨ raw.base + raw.len ≤ a.base) (anon : Anonymizer) :
    ∃ v, parseIDM (anonymizeRaw anon (raw.read h.mem)).2 = .ok v
      ∧ s.load (h'.mem.stores (anonymizeStores anon h'.mem raw)) = { s.load h'.mem with inetDiagMsg := some v } := by
  have hb := hr.1 raw hraw
  obtain ⟨idm, _, hrw, _⟩ := decode_parts e
  obtain ⟨_, v0, hv0⟩ := hrw raw hraw
  have hl := (parseIDM_take hv0).1
  rw [read_length] at hl
  have hk := (C111_value h h' r hr md s e).2.2
  have hread : raw.read h'.mem = raw.read h.mem := bytes_congr _ _ _ _ (fun x h1 h2 => hk x (by have := hb.1; have := hb.2; omega))
  have hst : ∀ x, x < raw.base + 8 ∨ raw.base + 40 ≤ x → h'.mem.stores (anonymizeStores anon h'.mem raw) x = h'.mem x := by
    intro x hx
    refine stores_other _ _ _ (fun q hq => ?_)
    have := anonymizeStores_where _ _ _ _ hq
    omega
  have hfin : raw.read (h'.mem.stores (anonymizeStores anon h'.mem raw)) = (anonymizeRaw anon (raw.read h.mem)).2 := by
    rw [C87_anonymized anon h'.mem raw (by omega), hread]
  obtain ⟨l1, l2, l3⟩ := C111_later h h' r hr md s e (h'.mem.stores (anonymizeStores anon h'.mem raw)) (fun x h1 h2 => hst x (by omega))
  obtain ⟨n1, _, _⟩ := C111_later h h' r hr md s e h'.mem (fun _ _ _ => rfl)
  have hq : ∃ v, parseIDM (raw.read (h'.mem.stores (anonymizeStores anon h'.mem raw))) = .ok v := by
    unfold parseIDM
    simp only
    rw [if_neg (by rw [read_length, show rtaAlignOf sizeofInetDiagMsg = 72 by decide]; omega)]
    exact ⟨_, rfl⟩
  obtain ⟨v, hv⟩ := hq
  refine ⟨v, by rw [← hfin]; exact hv, ?_⟩
  have same : ∀ k n, (k, n) ∈ structLens → structOf (s.load (h'.mem.stores (anonymizeStores anon h'.mem raw))) k = structOf (s.load h'.mem) k := by
    intro k n hk
    rw [l1 k n hk, n1 k n hk]
    cases ha : (r.attributes.getD [])[k]?.join with
    | none => rfl
    | some a =>
      have hmem : some a ∈ r.attributes.getD [] := by
        cases hg : (r.attributes.getD [])[k]? with
        | none => rw [hg] at ha; simp at ha
        | some o => rw [hg] at ha; simp only [Option.join_some] at ha; subst ha; exact List.mem_of_getElem? hg
      have hda := hd a hmem
      have : a.read (h'.mem.stores (anonymizeStores anon h'.mem raw)) = a.read h'.mem := bytes_congr _ _ _ _ (fun x h1 h2 => hst x (by omega))
      simp only [Option.map_some, this]
  rw [l3]
  have i : (s.load (h'.mem.stores (anonymizeStores anon h'.mem raw))).inetDiagMsg = some v := by rw [l2, hraw, Option.bind_some, hv]
  have s1 := same 1 16 (by simp [structLens])
  have s2 := same 2 232 (by simp [structLens])
  have s3 := same 3 16 (by simp [structLens])
  have s4 := same 7 36 (by simp [structLens])
  have s5 := same 9 16 (by simp [structLens])
  have s6 := same 16 24 (by simp [structLens])
  simp only [structOf] at s1 s2 s3 s4 s5 s6
  rw [i, s1, s2, s3, s4, s5, s6]

/-! ## Examples -/

/-- A record with a header (10.1.2.3 to 8.8.8.8), meminfo as long as the struct, vegasinfo that is too short, and a name. -/
def exAliasRec : ArchivalRecord :=
  { timestamp := 5
    rawIDM := some ([2, 1, 0, 0, 0, 80, 31, 144, 10, 1, 2, 3] ++ List.replicate 12 0 ++ [8, 8, 8, 8] ++ List.replicate 44 0)
    attributes := some [none, some ⟨[1, 2, 3, 4, 5, 6, 7, 8, 9, 10, 11, 12, 13, 14, 15, 16], [1, 1]⟩, none, some ⟨[21, 22, 23, 24], []⟩, some ⟨[99, 117, 98, 105, 99, 0], []⟩]
    metadata := none }
/-- It in memory. -/
def exAlias : PHeap × PArchival := pNewRecord ⟨fun _ => 7, 1000⟩ exAliasRec
/-- Its header. -/
def exAliasRaw : PSlice := ⟨1000, 72, 72⟩
/-- What `Decode` makes of it. -/
def exAliasSnap : PSnapshot :=
  { timestamp := 5, observed := 13, inetDiagMsg := some 1000, congestionAlgorithm := [99, 117, 98, 105, 99], memInfo := some 1072, vegasInfo := some 1100 }

theorem exAlias_in : RecordIn exAlias.1 exAlias.2 := by
  have := newRecord_ok ⟨fun _ => 7, 1000⟩ exAliasRec
  exact ⟨fun s h => ⟨(this.2.1.raw s h).1, (this.2.1.raw s h).2.1⟩, fun s h => ⟨(this.2.1.attrs _ h s rfl).1, (this.2.1.attrs _ h s rfl).2.1⟩⟩

/-- What `Decode` makes of a record satisfies a condition. -/
def decodesTo (x : PHeap × PArchival) (p : PHeap → Option Metadata → PSnapshot → Bool) : Bool :=
  match pDecode x.1 x.2 with
  | .ok (h', md, s) => p h' md s
  | _ => false

theorem decodesTo_some {x : PHeap × PArchival} {p : PHeap → Option Metadata → PSnapshot → Bool} (h : decodesTo x p = true) :
    ∃ h' md s, pDecode x.1 x.2 = .ok (h', md, s) ∧ p h' md s = true := by
  unfold decodesTo at h
  split at h
  · rename_i h' md s e; exact ⟨h', md, s, e, h⟩
  · simp at h

/-- C111 is false in general: the address in a snapshot changes when the record that it was decoded from is anonymized. -/
theorem C111_violated : ∃ h h' r md s raw anon, RecordIn h r ∧ r.raw = some raw ∧ pDecode h r = .ok (h', md, s)
    ∧ s.load (h'.mem.stores (anonymizeStores anon h'.mem raw)) ≠ s.load h'.mem := by
  obtain ⟨h', md, s, e, hp⟩ := decodesTo_some (x := exAlias)
    (p := fun h' _ s => decide ((s.load (h'.mem.stores (anonymizeStores exMemAnon h'.mem exAliasRaw))).inetDiagMsg ≠ (s.load h'.mem).inetDiagMsg)) (by decide +kernel)
  exact ⟨_, h', _, md, s, exAliasRaw, exMemAnon, exAlias_in, by rfl, e, fun h => of_decide_eq_true hp (congrArg _ h)⟩

-- the structs and where they are: header and meminfo in the record, vegasinfo in memory of its own
example : decodesTo exAlias (fun h' _ s => decide (s = exAliasSnap) && h'.brk == 1116) = true := by decide +kernel
example : decodesTo exAlias (fun h' _ s => (s.load h'.mem).vegasInfo == some (padded [21, 22, 23, 24] 16)
    && (s.load h'.mem).memInfo == some [1, 2, 3, 4, 5, 6, 7, 8, 9, 10, 11, 12, 13, 14, 15, 16]) = true := by
  decide +kernel
-- the header is apart from the attributes
example : exAlias.2.raw = some exAliasRaw ∧ ∀ a, some a ∈ exAlias.2.attributes.getD [] → a.base + a.len ≤ exAliasRaw.base ∨ exAliasRaw.base + exAliasRaw.len ≤ a.base := by
  have e : exAlias.2.attributes.getD [] = [none, some ⟨1072, 16, 18⟩, none, some ⟨1090, 4, 4⟩, some ⟨1094, 6, 6⟩] := by rfl
  refine ⟨by rfl, fun a ha => ?_⟩
  rw [e] at ha
  simp only [List.mem_cons, Option.some.injEq, List.not_mem_nil, or_false, reduceCtorEq, false_or] at ha
  rcases ha with rfl | rfl | rfl <;> simp [exAliasRaw]
-- overwriting the attributes shows in meminfo and not in vegasinfo
example : decodesTo exAlias (fun h' _ s => (s.load (h'.mem.store 1072 (List.replicate 28 0))).vegasInfo == (s.load h'.mem).vegasInfo
    && (s.load (h'.mem.store 1072 (List.replicate 28 0))).memInfo != (s.load h'.mem).memInfo) = true := by decide +kernel

/-- What `LoadAll` makes of records satisfies a condition. -/
def loadsTo (rs : List ArchivalRecord) (p : PHeap → List PSnapshot → Bool) : Bool :=
  match pLoadAllLoop (some .eof) rs ⟨fun _ => 7, 1000⟩ none [] with
  | .ok (h', _, l) => p h' l
  | _ => false

-- two snapshots; when the first one's meminfo is overwritten, the first one changes and the second one does not
example : loadsTo [exAliasRec, exAliasRec] (fun h' l => match l with
    | [a, b] => a.memInfo == some 1072 && b.memInfo == some 1188 && decide ((a.load (h'.mem.store 1072 (List.replicate 16 0))).memInfo ≠ (a.load h'.mem).memInfo)
      && decide ((b.load (h'.mem.store 1072 (List.replicate 16 0))).memInfo = (b.load h'.mem).memInfo)
    | _ => false) = true := by decide +kernel

end TcpInfo
