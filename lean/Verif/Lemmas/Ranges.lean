import Verif.Lemmas.Length
import Verif.Spec.ShortInput
import Verif.Lemmas.IPText
import Verif.Props.AddressText
import Verif.Props.Archive
/-!
# Times that have a textual form, lengths of address texts
-/

namespace TcpInfo
open Spec

theorem fmtTime_modern (off t : Int) (ho : off.natAbs < 1440) (ht : ModernTime t) : (fmtTime off t).isSome := by
  unfold ModernTime at ht
  exact fmtTime_some (by simp only [nsPerSec]; omega) (by simp only [nsPerSec]; omega)

theorem marshalEvent_modern {zone : Int → Int} (hz : ∀ t, (zone t).natAbs < 1440) {e : EventSocket.FlowEvent} (ht : ModernTime e.timestamp) :
    (EventSocket.marshalEvent zone e).isSome := by
  obtain ⟨b, hb⟩ := Option.isSome_iff_exists.1 (fmtTime_modern (zone e.timestamp) e.timestamp (hz _) ht)
  unfold EventSocket.marshalEvent EventSocket.eventToJ timeToJ
  simp [hb]

theorem toDigits16_length : ∀ n v, v < 16 ^ (n + 1) → (Nat.toDigits 16 v).length ≤ n + 1
  | 0, v, h => by rw [Nat.toDigits_of_lt_base (by simpa using h)]; simp
  | n + 1, v, h => by
    by_cases hv : v < 16
    · rw [Nat.toDigits_of_lt_base hv]; simp
    · rw [Nat.toDigits_of_base_le (by decide) (by omega)]
      have := toDigits16_length n (v / 16) (by rw [Nat.pow_succ] at h; omega)
      simp only [List.length_append, List.length_singleton]; omega

theorem joinHex_length (g : List Nat) (h : ∀ x ∈ g, x < 65536) : (joinHex g).length ≤ 5 * g.length := by
  induction g with
  | nil => simp [joinHex]
  | cons a g ih =>
    have h1 := toDigits16_length 3 a (by have := h a (by simp); simpa using this)
    have h2 := ih (fun x hx => h x (by simp [hx]))
    cases g with
    | nil => simp only [joinHex, List.length_singleton]; omega
    | cons b g => simp only [joinHex, List.length_append, List.length_cons] at h2 ⊢; omega

theorem fmtIPv4_length (b : Bytes) : (fmtIPv4 b).length ≤ 4 * b.length := by
  induction b with
  | nil => simp [fmtIPv4]
  | cons a b ih =>
    have h1 := toDigits_length 2 a.toNat (by have := a.toNat_lt; omega)
    cases b with
    | nil => simp only [fmtIPv4, List.length_singleton]; omega
    | cons x b => simp only [fmtIPv4, List.length_append, List.length_cons] at ih ⊢; omega

theorem groups_bound : ∀ b : Bytes, (groups b).length ≤ b.length ∧ ∀ x ∈ groups b, x < 65536
  | [] => by simp [groups]
  | [a] => by simp [groups]
  | a :: b :: r => by
    obtain ⟨h1, h2⟩ := groups_bound r
    have ha := a.toNat_lt
    have hb := b.toNat_lt
    refine ⟨by simp only [groups, List.length_cons]; omega, ?_⟩
    intro x hx
    simp only [groups, List.mem_cons] at hx
    rcases hx with rfl | hx
    · omega
    · exact h2 x hx

theorem ipString_length (ip : Bytes) : (ipString ip).length ≤ 200 := by
  unfold ipString
  split
  · decide
  · split
    · decide
    · rename_i hn
      have hl : ip.length ≤ 16 := by omega
      split
      · rename_i p4 hp4
        have := fmtIPv4_length p4
        have : p4.length ≤ 16 := by
          unfold to4 at hp4
          split at hp4
          · injection hp4 with hp4; subst hp4; omega
          · split at hp4
            · injection hp4 with hp4; subst hp4; simp; omega
            · simp at hp4
        omega
      · unfold fmtIPv6
        simp only
        obtain ⟨h1, h2⟩ := groups_bound ip
        split
        · have a1 := joinHex_length ((groups ip).take (bestRun (groups ip)).1) (fun x hx => h2 x (List.mem_of_mem_take hx))
          have a2 := joinHex_length ((groups ip).drop (bestRun (groups ip)).2) (fun x hx => h2 x (List.mem_of_mem_drop hx))
          simp only [List.length_append, List.length_cons, List.length_take, List.length_drop] at a1 a2 ⊢
          omega
        · have := joinHex_length (groups ip) h2
          omega

theorem getSockID_length (id : LinuxSockID) : id.getSockID.srcIP.length + id.getSockID.dstIP.length ≤ 400 := by
  have h1 := ipString_length id.srcIP
  have h2 := ipString_length id.dstIP
  simp only [LinuxSockID.getSockID, ← String.length_toList, String.toList_ofList]
  omega

end TcpInfo
