import Verif.Lemmas.SaverCrash
import Verif.Props.Record
import Verif.Props.SaverRuns
/-!
# C44: exactly when the saver crashes
-/

namespace TcpInfo
open Spec

theorem makeRecord_panic_iff (raw attrs spare : Bytes) : makeRecord raw attrs spare = .panic ↔ TornTail attrs := by
  unfold TornTail
  rw [← C09_panic_iff attrs spare]
  unfold makeRecord
  have := C08_terminates attrs spare
  split <;> simp_all

/-- C44. Building the record of a message panics exactly on messages with a torn tail. -/
theorem C44_message_iff (msg : NetlinkMessage) (ex : Option ExcludeConfig) : makeArchivalRecord msg ex = .panic ↔ TornMessage ex msg := by
  unfold TornMessage
  have hw : ∀ d : DiagMsg, d.wire.length = 72 := fun d => by simp [DiagMsg.wire, d.src.property, d.dst.property]
  by_cases ht : msg.header.type = 20
  · by_cases hs : msg.data.length < 72
    · rw [(C11_errors msg ex).2 ht hs]
      constructor
      · intro h; simp at h
      · rintro ⟨-, d, rest, he, -⟩
        rw [he, List.length_append, hw] at hs; omega
    · have hl : 72 ≤ msg.data.length := by omega
      have hlt : (msg.data.take 72).length = 72 := by simp; omega
      obtain ⟨idm, hp⟩ : ∃ idm, parseIDM (msg.data.take 72) = .ok idm := ⟨_, parseIDM_ok (by omega)⟩
      obtain ⟨m, hwm, -⟩ := C02_wire_parse _ hlt idm hp
      have hm : msg.data = m.wire ++ msg.data.drop 72 := by rw [hwm, List.take_append_drop]
      have huniq : ∀ (d : DiagMsg) rest, msg.data = d.wire ++ rest → d.wire = msg.data.take 72 ∧ rest = msg.data.drop 72 := by
        intro d rest he
        rw [he]
        exact ⟨(List.take_left' (hw d)).symm, (List.drop_left' (hw d)).symm⟩
      have hnone : makeArchivalRecord msg none = .panic ↔ TornTail (msg.data.drop 72) := by
        rw [← makeRecord_panic_iff (msg.data.take 72) _ msg.spare]
        simp [makeArchivalRecord, splitInetDiagMsg_ok hl, ht]
      cases ex with
      | none =>
        rw [hnone]
        constructor
        · intro h; exact ⟨ht, m, _, hm, h, by intro c hc; simp at hc⟩
        · rintro ⟨-, d, rest, he, h, -⟩
          rw [← (huniq d rest he).2]; exact h
      | some c =>
        constructor
        · intro h
          have hne : makeArchivalRecord msg (some c) ≠ .ok none := by rw [h]; simp
          rcases (C11_otherwise_unaffected msg).2 c with h1 | h1
          · exact absurd h1 hne
          · refine ⟨ht, m, _, hm, hnone.1 (h1 ▸ h), ?_⟩
            intro c' hc hx
            injection hc with hc; subst hc
            exact hne ((C11_excluded_iff msg c).2 ⟨ht, m, _, hm, hx⟩)
        · rintro ⟨-, d, rest, he, h, hx⟩
          rcases (C11_otherwise_unaffected msg).2 c with h1 | h1
          · exfalso
            obtain ⟨-, d', rest', he', hx'⟩ := (C11_excluded_iff msg c).1 h1
            obtain ⟨i, hi, ha⟩ := C02_parse_wire_partial d []
            obtain ⟨i', hi', ha'⟩ := C02_parse_wire_partial d' []
            rw [List.append_nil, (huniq d rest he).1] at hi
            rw [List.append_nil, (huniq d' rest' he').1] at hi'
            have : i = i' := Res.ok.inj (hi.symm.trans hi')
            subst this
            exact hx c rfl ((excludes_iff c i d ha).1 ((excludes_iff c i d' ha').2 hx'))
          · rw [h1, hnone, ← (huniq d rest he).2]; exact h
  · rw [(C11_errors msg ex).1 ht]
    constructor
    · intro h; simp at h
    · rintro ⟨h, -⟩; exact absurd h ht

/-- C44. Exactly when the saver crashes, whatever happens to files and whatever the clock says, with any number of marshallers: when a message has a torn
tail; or when tcp_info of two consecutive reports of a connection in the same state has to be compared and lies less than 168 bytes before the end of its
memory; or, without marshallers, when a connection disappears between two blocks. -/
theorem C44_crash_iff (env : Env) (hv : ViewOK env) (hk : KeepsRoom env) (bs : List MessageBlock) :
    runSaver env bs = none
      ↔ (∃ b ∈ bs, ∃ m, some m ∈ b.v4Messages ++ b.v6Messages ∧ TornMessage env.exclude m)
        ∨ ∃ h c t, history env.exclude bs = h ++ c :: t ∧ CrashAt env.marshallers h c := by
  have e : runSaver env bs = none ↔ runBlocks env bs = none := by
    unfold runSaver
    cases hr : runBlocks env bs with
    | none => simp
    | some l =>
      simp only [Option.bind_some]
      constructor
      · intro h
        exfalso
        by_cases hm : env.marshallers = 0
        · have hc := no_conns env hm bs l hr
          have : env.order l.svr.tick l.svr.conns.keys = [] := by
            have := env.order_perm l.svr.tick l.svr.conns.keys
            rw [hc] at this ⊢
            exact this.eq_nil
          simp [Saver.close, this, Saver.endAll] at h
        · obtain ⟨s, e1, -⟩ := close_effect env hm l.svr (run_wf hr)
          rw [e1] at h; simp at h
      · intro h; simp at h
  rw [e]
  simp only [← C44_message_iff]
  have := blocks_none_iff env hv hk bs [] newLoop rfl
  unfold ExCrash at this
  unfold runBlocks
  simpa using this

/-- 104 bytes of tcp_info at the very end of the receive buffer, in two consecutive blocks. -/
def crashBlocks : List MessageBlock :=
  [exBlock 1 [exMsgA 1 ([108, 0, 2, 0] ++ List.replicate 104 0)], exBlock 2 [exMsgA 1 ([108, 0, 2, 0] ++ List.replicate 104 0)]]

example : ViewOK exEnv ∧ KeepsRoom exEnv := ⟨fun _ _ => ⟨rfl, rfl, ⟨rfl, rfl, rfl⟩, rfl⟩, fun _ _ => rfl⟩
example : ∃ h c t, history exEnv.exclude crashBlocks = h ++ c :: t ∧ CrashAt exEnv.marshallers h c := by
  refine ((C44_crash_iff exEnv (fun _ _ => ⟨rfl, rfl, ⟨rfl, rfl, rfl⟩, rfl⟩) (fun _ _ => rfl) crashBlocks).1 C44_violated_short).resolve_left ?_
  rintro ⟨b, hb, m, hm, ht⟩
  rw [← C44_message_iff, show exEnv.exclude = none from rfl] at ht
  have : ∀ b ∈ crashBlocks, ∀ m ∈ b.v4Messages ++ b.v6Messages, (m.all (fun m => makeArchivalRecord m none ≠ .panic)) = true := by decide +kernel
  have := this b hb _ hm
  simp only [Option.all_some] at this
  exact absurd ht (by simpa using this)
example : ¬ ∃ b ∈ exBlocks, ∃ m, some m ∈ b.v4Messages ++ b.v6Messages ∧ TornMessage none m := by
  rintro ⟨b, hb, m, hm, ht⟩
  rw [← C44_message_iff] at ht
  have : ∀ b ∈ exBlocks, ∀ m ∈ b.v4Messages ++ b.v6Messages, (m.all (fun m => makeArchivalRecord m none ≠ .panic)) = true := by decide +kernel
  have := this b hb _ hm
  simp only [Option.all_some] at this
  exact absurd ht (by simpa using this)
example : TornMessage none { header := ⟨0, 20, 0, 0, 0⟩, data := exampleMsg.wire ++ [5, 0, 1, 0, 42] } :=
  ⟨rfl, exampleMsg, _, rfl, ⟨[], _, rfl, by simp, by decide, by decide, by decide⟩, by intro c hc; simp at hc⟩

end TcpInfo
