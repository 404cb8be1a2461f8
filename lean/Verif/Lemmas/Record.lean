import Verif.Lemmas.RouteAttr
import Verif.Spec.Record
import Verif.Props.Address
import Verif.Props.RouteAttr
import Verif.Props.Header
/-! Lemmas about building records. -/

namespace TcpInfo
open Spec

theorem lastDataSentOffset_eq : lastDataSentOffset = 44 := by decide +kernel
theorem pmtuOffset_eq : pmtuOffset = 60 := by decide +kernel
theorem busytimeOffset_eq : busytimeOffset = 168 := by decide +kernel
theorem bytesReceivedOffset_eq : bytesReceivedOffset = 128 := by decide +kernel
theorem bytesSentOffset_eq : bytesSentOffset = 200 := by decide +kernel
theorem sizeofTCPInfo_eq : goSizeof goTCPInfo = 232 := by decide +kernel

theorem maxLoop_ge (l : List RouteAttr) (m : Nat) : m ≤ maxAttrTypeLoop l m ∧ ∀ a ∈ l, a.type.toNat ≤ maxAttrTypeLoop l m := by
  induction l generalizing m with
  | nil => simp [maxAttrTypeLoop]
  | cons a l ih =>
    simp only [maxAttrTypeLoop]
    have := ih (if a.type.toNat > m then a.type.toNat else m)
    refine ⟨?_, ?_⟩
    · have := this.1; split at this <;> split <;> omega
    · intro b hb
      rcases List.mem_cons.1 hb with rfl | hb
      · have := this.1; split at this <;> split <;> omega
      · exact this.2 b hb

theorem maxLoop_mem (l : List RouteAttr) (m : Nat) : maxAttrTypeLoop l m = m ∨ ∃ a ∈ l, a.type.toNat = maxAttrTypeLoop l m := by
  induction l generalizing m with
  | nil => simp [maxAttrTypeLoop]
  | cons a l ih =>
    simp only [maxAttrTypeLoop]
    rcases ih (if a.type.toNat > m then a.type.toNat else m) with h | ⟨b, hb, h⟩
    · by_cases hm : a.type.toNat > m
      · right; refine ⟨a, by simp, ?_⟩; rw [h, if_pos hm]
      · left; rw [h, if_neg hm]
    · right; exact ⟨b, by simp [hb], h⟩

theorem fillAttrs_length (l : List RouteAttr) (m : Nat) (tbl) : (fillAttrs l m tbl).length = tbl.length := by
  induction l generalizing tbl with
  | nil => rfl
  | cons a l ih =>
    simp only [fillAttrs]
    split <;> simp [ih]

/-- Last value of type `t` among parsed attributes, with a default. -/
def lastRA (t : Nat) (d : Option GoSlice) : List RouteAttr → Option GoSlice
  | [] => d
  | a :: l => lastRA t (if a.type.toNat = t then some a.value else d) l

theorem fillAttrs_get (l : List RouteAttr) (m : Nat) (tbl : List (Option GoSlice)) (hlen : tbl.length = m + 1) (t : Nat) (ht : t < m + 1) :
    (fillAttrs l m tbl)[t]? = some (lastRA t ((tbl[t]?).getD none) l) := by
  induction l generalizing tbl with
  | nil =>
    simp only [fillAttrs, lastRA]
    rw [List.getElem?_eq_getElem (by omega)]; simp
  | cons a l ih =>
    simp only [fillAttrs, lastRA]
    split
    · rename_i h
      rw [ih _ hlen, if_neg (by omega)]
    · rw [ih _ (by simpa using hlen)]
      congr 2
      rw [List.getElem?_set]
      split
      · rename_i h; rw [if_pos (by omega)]; simp [h]
      · rfl

theorem lastRA_outAttrs (rest : Bytes) (t : Nat) (l : List (Attr × Bytes)) (d : Option GoSlice) :
    (lastRA t d (outAttrs rest l)).map GoSlice.val = match lastOf t (l.map (·.1)) with
      | some v => some v
      | none => d.map GoSlice.val := by
  induction l generalizing d with
  | nil => simp [outAttrs, lastRA, lastOf]
  | cons p l ih =>
    obtain ⟨a, pad⟩ := p
    simp only [outAttrs, lastRA, ih, List.map_cons, lastOf]
    cases lastOf t (l.map (·.1)) with
    | some v => rfl
    | none => simp only; split <;> rfl

theorem makeRecord_ok (raw : Bytes) (l : List (Attr × Bytes)) (hg : ∀ p ∈ l, GoodAttr p) (rest spare : Bytes) (hr : rest.length < 4) :
    ∃ m, IsMaxType m (l.map (·.1)) ∧ ∃ tbl : List (Option GoSlice), tbl.length = 1 + min m 38
      ∧ makeRecord raw (attrsWire l ++ rest) spare = .ok (some { timestamp := 0, rawIDM := some raw, attributes := some tbl, metadata := none })
      ∧ ∀ t, t < tbl.length → ∃ e, tbl[t]? = some e ∧ e.map GoSlice.val = lastOf t (l.map (·.1)) := by
  refine ⟨maxAttrTypeLoop (outAttrs (rest ++ spare) l) 0, ?_, ?_⟩
  · have h1 := maxLoop_ge (outAttrs (rest ++ spare) l) 0
    have h2 := maxLoop_mem (outAttrs (rest ++ spare) l) 0
    have hmap := outAttrs_map (rest ++ spare) l
    refine ⟨?_, ?_⟩
    · intro a ha
      obtain ⟨p, hp, rfl⟩ := List.mem_map.1 ha
      have : (p.1.type, p.1.value) ∈ l.map (fun p => (p.1.type, p.1.value)) := List.mem_map.2 ⟨p, hp, rfl⟩
      rw [← hmap] at this
      obtain ⟨r, hr, he⟩ := List.mem_map.1 this
      have := h1.2 r hr
      simp only [Prod.mk.injEq] at he
      rw [← he.1]; exact this
    · rcases h2 with h2 | ⟨r, hr, he⟩
      · exact Or.inl h2
      · right
        have : (r.type, r.value.val) ∈ (outAttrs (rest ++ spare) l).map (fun r => (r.type, r.value.val)) := List.mem_map.2 ⟨r, hr, rfl⟩
        rw [hmap] at this
        obtain ⟨p, hp, he2⟩ := List.mem_map.1 this
        simp only [Prod.mk.injEq] at he2
        exact ⟨p.1, List.mem_map.2 ⟨p, hp, rfl⟩, by rw [he2.1]; exact he⟩
  · generalize hM : maxAttrTypeLoop (outAttrs (rest ++ spare) l) 0 = M
    have hmin : (if M > 2 * INET_DIAG_MAX then 2 * INET_DIAG_MAX else M) = min M 38 := by
      show (if M > 38 then 38 else M) = min M 38
      split <;> omega
    refine ⟨fillAttrs (outAttrs (rest ++ spare) l) (min M 38) (List.replicate (min M 38 + 1) none), ?_, ?_, ?_⟩
    · rw [fillAttrs_length]; simp; omega
    · simp only [makeRecord, (parseRouteAttr_spec l hg rest spare).1 hr, hM, hmin]
    · intro t ht
      rw [fillAttrs_length, List.length_replicate] at ht
      refine ⟨_, fillAttrs_get _ _ _ (by simp) t ht, ?_⟩
      rw [lastRA_outAttrs]
      have : (((List.replicate (min M 38 + 1) (none : Option GoSlice))[t]?).getD none) = none := by
        rw [List.getElem?_replicate]; split <;> rfl
      rw [this]
      cases lastOf t (l.map (·.1)) <;> rfl

theorem makeRecord_some {raw attrBytes spare : Bytes} {r : ArchivalRecord} (h : makeRecord raw attrBytes spare = .ok (some r)) :
    ∃ (l : List (Attr × Bytes)) (rest : Bytes), attrBytes = attrsWire l ++ rest ∧ (∀ p ∈ l, GoodAttr p) ∧ rest.length < 4 := by
  obtain ⟨l, rest, rfl, hg, hr | ⟨h4, hr | hr | ⟨h1, h2, h3⟩⟩⟩ := decompose attrBytes.length attrBytes (Nat.le_refl _)
  · exact ⟨l, rest, rfl, hg, hr⟩
  · simp [makeRecord, (parseRouteAttr_spec l hg rest spare).2.1 h4 (Or.inl hr)] at h
  · simp [makeRecord, (parseRouteAttr_spec l hg rest spare).2.1 h4 (Or.inr hr)] at h
  · simp [makeRecord, (parseRouteAttr_spec l hg rest spare).2.2 h4 h1 h2 h3] at h

theorem makeRecord_ne_none (raw attrBytes spare : Bytes) : makeRecord raw attrBytes spare ≠ .ok none := by
  unfold makeRecord
  split <;> simp

theorem makeArchivalRecord_some {msg : NetlinkMessage} {ex : Option ExcludeConfig} {r : ArchivalRecord}
    (h : makeArchivalRecord msg ex = .ok (some r)) :
    msg.header.type = 20 ∧ 72 ≤ msg.data.length ∧ makeRecord (msg.data.take 72) (msg.data.drop 72) msg.spare = .ok (some r) := by
  have ht : msg.header.type = 20 := by
    apply Classical.byContradiction
    intro ht
    simp [makeArchivalRecord, ht] at h
  by_cases hs : msg.data.length < 72
  · simp [makeArchivalRecord, splitInetDiagMsg_short hs, ht] at h
  · have hl : 72 ≤ msg.data.length := by omega
    refine ⟨ht, hl, ?_⟩
    simp only [makeArchivalRecord, splitInetDiagMsg_ok hl] at h
    split at h
    · simp at h
    · cases ex with
      | none => simpa using h
      | some ex =>
        simp only at h
        split at h
        · simp at h
        · simp at h
        · split at h
          · simp at h
          · exact h

theorem isLocal_ipOf (b : Bytes) (h : b.length = 16) : isLocal (ipOf b) = true ↔ LocalField b := by
  have hspl : b = b.take 4 ++ b.drop 4 := by simp
  by_cases hz : b.drop 4 = List.replicate 12 0
  · have h4 : ∃ a c d e, b.take 4 = [a, c, d, e] := by
      have : (b.take 4).length = 4 := by simp; omega
      match hh : b.take 4, this with
      | [a, c, d, e], _ => exact ⟨a, c, d, e, rfl⟩
    obtain ⟨a, c, d, e, ht⟩ := h4
    have hb : b = [a, c, d, e] ++ List.replicate 12 0 := by rw [← ht, ← hz, List.take_append_drop]
    rw [hb, C04_local_v4]
    simp [LocalField, byte]
  · have : ∃ i, 4 ≤ i ∧ i < 16 ∧ byte b i ≠ 0 := by
      apply Classical.byContradiction
      intro hn
      apply hz
      apply List.ext_getElem?
      intro i
      rw [List.getElem?_drop, List.getElem?_replicate]
      by_cases hi : i < 12
      · rw [if_pos hi]
        have : byte b (4 + i) = 0 := Classical.byContradiction (fun hc => hn ⟨4 + i, by omega, by omega, hc⟩)
        rw [byte, List.getD_eq_getElem?_getD, List.getElem?_eq_getElem (by omega)] at this
        rw [List.getElem?_eq_getElem (by omega)]
        simpa using this
      · rw [if_neg hi, List.getElem?_eq_none (by omega)]
    rw [C04_local_v6_partial b h this]
    unfold LocalField
    constructor
    · exact fun h => Or.inr ⟨hz, h⟩
    · rintro (h | h)
      · exact absurd h.1 hz
      · exact h.2

theorem excludes_iff (ex : ExcludeConfig) (idm : InetDiagMsg) (m : DiagMsg) (ha : Agrees idm m) :
    ex.excludes idm = true ↔ Excluded (ex.srcPorts.getD []) ex.localConns (ex.dstIPs.getD []) m := by
  obtain ⟨-, -, -, -, hsp, -, hsrc, hdst, -⟩ := ha
  have h1 : ex.hasSrcPort idm.id.sPort = true ↔ m.sport ∈ ex.srcPorts.getD [] := by
    rw [hsp]; unfold ExcludeConfig.hasSrcPort; cases ex.srcPorts <;> simp
  have h2 : ex.hasDstIP idm.id.dst = true ↔ m.dst.val ∈ ex.dstIPs.getD [] := by
    rw [hdst]; unfold ExcludeConfig.hasDstIP; cases ex.dstIPs <;> simp
  have h3 : isLocal idm.id.srcIP = true ↔ LocalField m.src.val := by
    rw [LinuxSockID.srcIP, hsrc]; exact isLocal_ipOf _ m.src.property
  have h4 : isLocal idm.id.dstIP = true ↔ LocalField m.dst.val := by
    rw [LinuxSockID.dstIP, hdst]; exact isLocal_ipOf _ m.dst.property
  unfold ExcludeConfig.excludes Excluded
  rw [← h1, ← h2, ← h3, ← h4]
  by_cases c1 : ex.hasSrcPort idm.id.sPort = true
  · simp [c1]
  · by_cases c2 : ex.hasDstIP idm.id.dst = true
    · simp [c2]
    · cases ex.localConns <;> simp [c1, c2]

end TcpInfo
