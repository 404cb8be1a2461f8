import Verif.Model.EventClient
import Verif.Lemmas.Archive
/-!
# Lemmas about events as JSON lines, and the client
-/

namespace TcpInfo.EventSocket
open TcpInfo

theorem sockIDToJ_ok (id : SockID) : (sockIDToJ id).ok := by
  simp only [sockIDToJ, J.ok, J.okMembers]
  exact ⟨keyOk _ (by decide +kernel), okNum_intLit _, keyOk _ (by decide +kernel), okNum_intLit _, keyOk _ (by decide +kernel), okStr_quote _,
    keyOk _ (by decide +kernel), okStr_quote _, keyOk _ (by decide +kernel), okNum_intLit _, keyOk _ (by decide +kernel), okNum_intLit _, trivial⟩

theorem eventToJ_ok {zone : Int → Int} {e : FlowEvent} {j : J} (h : eventToJ zone e = some j) : j.ok ∧ ∃ l, j = .obj l := by
  unfold eventToJ at h
  obtain ⟨ts, hts, rfl⟩ := Option.map_eq_some_iff.mp h
  refine ⟨?_, _, rfl⟩
  simp only [J.ok, J.okMembers]
  refine ⟨keyOk _ (by decide +kernel), okNum_intLit _, keyOk _ (by decide +kernel), timeToJ_ok hts, keyOk _ (by decide +kernel), okStr_quote _,
    keyOk _ (by decide +kernel), ?_, trivial⟩
  unfold optSockIDToJ
  cases e.id with
  | none => simp [J.ok]
  | some id => exact sockIDToJ_ok id

theorem storeSockID_toJ (id : SockID) (cur : Option SockID) : storeSockID cur (sockIDToJ id) = some (some id) := by
  have k1 : lookupField sockIDFields (unquote (key "SPort")) = some .sport := by decide +kernel
  have k2 : lookupField sockIDFields (unquote (key "DPort")) = some .dport := by decide +kernel
  have k3 : lookupField sockIDFields (unquote (key "SrcIP")) = some .srcIP := by decide +kernel
  have k4 : lookupField sockIDFields (unquote (key "DstIP")) = some .dstIP := by decide +kernel
  have k5 : lookupField sockIDFields (unquote (key "Interface")) = some .iface := by decide +kernel
  have k6 : lookupField sockIDFields (unquote (key "Cookie")) = some .cookie := by decide +kernel
  have h1 := id.sport.toNat_lt
  have h2 := id.dport.toNat_lt
  have h3 := id.iface.toNat_lt
  have c1 : minInt64 ≤ id.cookie.toInt := by have := Int64.le_toInt id.cookie; simpa using this
  have c2 : id.cookie.toInt ≤ maxInt64 := by have := Int64.toInt_lt id.cookie; simp only [maxInt64]; omega
  unfold sockIDToJ storeSockID
  simp only [foldMembers, storeSockIDMember, k1, k2, k3, k4, k5, k6, storeString, unquote_quote, Option.map_some, Option.bind_some, String.ofList_toList]
  rw [storeInt_intLit _ _ (by omega) (by omega) (by omega)]
  simp only [Option.map_some, Option.bind_some]
  rw [storeInt_intLit _ _ (by omega) (by omega) (by omega)]
  simp only [Option.map_some, Option.bind_some]
  rw [storeInt_intLit _ _ (by omega) (by omega) (by omega)]
  simp only [Option.map_some, Option.bind_some]
  rw [storeInt_intLit _ _ c1 c2 (fun e => absurd e (by decide))]
  simp

/-- The number of an event fits into an `int`. -/
def evOk (e : FlowEvent) : Prop := minInt64 ≤ e.event ∧ e.event ≤ maxInt64

theorem eventOfJ_toJ {zone : Int → Int} (hz : ∀ t, (zone t).natAbs < 1440) {e : FlowEvent} (hs : evOk e) {j : J} (h : eventToJ zone e = some j) :
    eventOfJ j = some e := by
  unfold eventToJ at h
  obtain ⟨ts, hts, rfl⟩ := Option.map_eq_some_iff.mp h
  have k1 : lookupField eventFields (unquote (key "Event")) = some .event := by decide +kernel
  have k2 : lookupField eventFields (unquote (key "Timestamp")) = some .timestamp := by decide +kernel
  have k3 : lookupField eventFields (unquote (key "UUID")) = some .uuid := by decide +kernel
  have k4 : lookupField eventFields (unquote (key "ID")) = some .id := by decide +kernel
  have hid : ∀ cur, storeSockID cur (optSockIDToJ e.id) = some e.id := by
    intro cur
    unfold optSockIDToJ
    cases e.id with
    | none => rfl
    | some id => exact storeSockID_toJ id cur
  unfold eventOfJ
  simp only [foldMembers, storeEventMember, k1, k2, k3, k4, storeString, unquote_quote, Option.map_some, Option.bind_some,
    storeInt_intLit _ _ hs.1 hs.2 (fun e => absurd e (by decide)), storeTime_toJ hz hts, String.ofList_toList, hid]

theorem unmarshal_marshal {zone : Int → Int} (hz : ∀ t, (zone t).natAbs < 1440) {e : FlowEvent} (hs : evOk e) {b : Bytes}
    (h : marshalEvent zone e = some b) : unmarshalEvent b = some e := by
  unfold marshalEvent at h
  obtain ⟨j, hj, rfl⟩ := Option.map_eq_some_iff.mp h
  unfold unmarshalEvent
  rw [parseJson_enc _ (eventToJ_ok hj).1, Option.bind_some, eventOfJ_toJ hz hs hj]

theorem unmarshal_prefix {zone : Int → Int} {e : FlowEvent} {b p q : Bytes} (h : marshalEvent zone e = some b) (hb : b = p ++ q)
    (hp : p ≠ []) (hq : q ≠ []) : unmarshalEvent p = none := by
  unfold marshalEvent at h
  obtain ⟨j, hj, rfl⟩ := Option.map_eq_some_iff.mp h
  obtain ⟨hok, l, rfl⟩ := eventToJ_ok hj
  unfold unmarshalEvent
  rw [parseJson_prefix l hok p q hb hp hq]
  rfl

theorem sockID_noCtl (id : SockID) : ∀ x ∈ (sockIDToJ id).enc, noCtl x := by
  unfold sockIDToJ
  apply enc_members_noCtl
  intro kv hkv
  simp only [List.mem_cons, List.not_mem_nil, or_false] at hkv
  rcases hkv with rfl | rfl | rfl | rfl | rfl | rfl <;> refine ⟨key_noCtl _ (by decide +kernel), ?_⟩
  · simp only [J.enc]; exact intLit_noCtl _
  · simp only [J.enc]; exact intLit_noCtl _
  · exact enc_str_noCtl (quote_noCtl _)
  · exact enc_str_noCtl (quote_noCtl _)
  · simp only [J.enc]; exact intLit_noCtl _
  · simp only [J.enc]; exact intLit_noCtl _

theorem marshal_noCtl {zone : Int → Int} {e : FlowEvent} {b : Bytes} (h : marshalEvent zone e = some b) : ∀ x ∈ b, noCtl x := by
  unfold marshalEvent at h
  obtain ⟨j, hj, rfl⟩ := Option.map_eq_some_iff.mp h
  unfold eventToJ at hj
  obtain ⟨ts, hts, rfl⟩ := Option.map_eq_some_iff.mp hj
  apply enc_members_noCtl
  intro kv hkv
  simp only [List.mem_cons, List.not_mem_nil, or_false] at hkv
  rcases hkv with rfl | rfl | rfl | rfl <;> refine ⟨key_noCtl _ (by decide +kernel), ?_⟩
  · simp only [J.enc]; exact intLit_noCtl _
  · exact time_noCtl hts
  · exact enc_str_noCtl (quote_noCtl _)
  · unfold optSockIDToJ
    cases e.id with
    | none => exact enc_bytes_noCtl none
    | some id => exact sockID_noCtl id

theorem clientLoop_append (ls ms : List Bytes) (es : List FlowEvent) (h : ls.map unmarshalEvent = es.map some) :
    clientLoop (ls ++ ms) = (es.flatMap dispatch ++ (clientLoop ms).1, (clientLoop ms).2) := by
  induction ls generalizing es with
  | nil => cases es <;> simp_all
  | cons l ls ih =>
    cases es with
    | nil => simp at h
    | cons e es =>
      simp only [List.map_cons, List.cons.injEq] at h
      rw [List.cons_append, clientLoop, h.1]
      simp only
      rw [ih es h.2]
      simp

end TcpInfo.EventSocket
