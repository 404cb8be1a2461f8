import Verif.Lemmas.SaverGrow
import Verif.Spec.Pace
/-!
# Every file gets a record at once
-/

namespace TcpInfo
open Spec

theorem followed_nil : Followed [] := by
  intro b x a w n hd h
  simp at h

theorem followed_append (a b : List Stamped) (ha : Followed a) (hb : Followed b) : Followed (a ++ b) := by
  intro before x after w n hd h hx
  rcases List.append_eq_append_iff.1 h with ⟨c, h1, h2⟩ | ⟨c, h1, h2⟩
  · exact hb c x after w n hd h2 hx
  · cases c with
    | nil =>
      simp only [List.nil_append] at h2
      exact hb [] x after w n hd h2.symm hx
    | cons y c =>
      simp only [List.cons_append, List.cons.injEq] at h2
      obtain ⟨rfl, rfl⟩ := h2
      obtain ⟨y, rest, q, r, e, h3, h4, h5⟩ := ha before x c w n hd h1 hx
      exact ⟨y, rest ++ b, q, r, by rw [e]; rfl, h3, h4, h5⟩

theorem followed_other (a : Stamped) (h : ∀ w n hd, a.act ≠ .openFile w n hd) : Followed [a] := by
  intro before x after w n hd e hx
  have : x ∈ [a] := by rw [e]; simp
  rw [List.mem_singleton] at this
  subst this
  exact absurd hx (h w n hd)

theorem followed_open (t : Int) (w : Nat) (n : FileName) (hd : ArchivalRecord) (q : Nat) (r : ArchivalRecord) (hr : 72 ≤ (r.rawIDM.getD []).length) :
    Followed [⟨t, .openFile w n hd⟩, ⟨t, .send q ⟨some r, some w⟩⟩] := by
  intro before x after w' n' hd' e hx
  cases before with
  | nil =>
    simp only [List.nil_append, List.cons.injEq] at e
    obtain ⟨rfl, rfl⟩ := e
    simp only [Action.openFile.injEq] at hx
    obtain ⟨rfl, -, -⟩ := hx
    exact ⟨_, [], q, r, rfl, rfl, rfl, hr⟩
  | cons y before =>
    simp only [List.cons_append, List.cons.injEq] at e
    obtain ⟨-, e⟩ := e
    have : x ∈ [(⟨t, .send q ⟨some r, some w⟩⟩ : Stamped)] := by rw [e]; simp
    rw [List.mem_singleton] at this
    subst this
    simp at hx

theorem followed_queue (env : Env) (s : Saver) (msg : ArchivalRecord) (s' : Saver) (e : Option GoErr) (h : s.queue env msg = some (s', e)) : Grow Followed s s' := by
  have self : ∀ s t : Saver, t.trace = s.trace → Grow Followed s t := fun s t h => ⟨[], by simp [h], followed_nil⟩
  have trans : ∀ {s t u : Saver}, Grow Followed s t → Grow Followed t u → Grow Followed s u := by
    rintro s t u ⟨a, ha, fa⟩ ⟨b, hb, fb⟩
    exact ⟨a ++ b, by rw [hb, ha, List.append_assoc], followed_append a b fa fb⟩
  have one : ∀ (s : Saver) (a : Action), (∀ w n hd, a ≠ .openFile w n hd) → Grow Followed s (s.emit a) :=
    fun s a h => ⟨[⟨s.clock, a⟩], rfl, followed_other _ h⟩
  unfold Saver.queue at h
  cases hp : parseIDM msg.raw with
  | err _ => rw [hp] at h; simp at h
  | panic => rw [hp] at h; simp at h
  | ok idm =>
    have hlen : 72 ≤ (msg.rawIDM.getD []).length := by
      rcases Nat.lt_or_ge msg.raw.length 72 with hl | hl
      · rw [parseIDM_short hl] at hp; simp at hp
      · exact hl
    rw [hp] at h
    simp only at h
    split at h
    · injection h with h; injection h with h _; subst h; exact self _ _ rfl
    split at h
    · injection h with h; injection h with h _; subst h; exact self _ _ rfl
    have g1 : Grow Followed s (s.getConn env (cookieOf idm) idm msg.timestamp).1 := by
      unfold Saver.getConn
      split
      · exact self _ _ rfl
      · exact trans (one (s.readClock env) (.flowCreated _ _ _) (by simp)) (self _ _ rfl)
    generalize s.getConn env (cookieOf idm) idm msg.timestamp = sc at h g1
    have g2 : Grow Followed sc.1 (sc.1.closeExpired env (cookieOf idm) sc.2).1 := by
      unfold Saver.closeExpired
      simp only
      split
      · exact one (sc.1.readClock env) (.send _ _) (by simp)
      · exact self _ _ rfl
    generalize sc.1.closeExpired env (cookieOf idm) sc.2 = sc2 at h g2
    have g := trans g1 g2
    by_cases hw : sc2.2.writer = none
    · rw [if_pos hw] at h
      have hrd : (sc2.1.rotateDir env sc2.2).1.trace = sc2.1.trace := by
        unfold Saver.rotateDir
        split <;> rfl
      by_cases hok : env.createOK (sc2.1.rotateDir env sc2.2).1.tick = false
      · have e1 : sc2.1.rotate env sc2.2 = ({ (sc2.1.rotateDir env sc2.2).1 with tick := (sc2.1.rotateDir env sc2.2).1.tick + 1 },
            { sc2.2 with writer := none }, some .create) := by
          unfold Saver.rotate; simp only; rw [if_pos hok]
        rw [e1] at h
        injection h with h; injection h with h _; subst h
        exact trans g (self _ _ hrd)
      · have e1 : ∃ s1 c1 w n, sc2.1.rotate env sc2.2 = (s1, c1, none) ∧ s1.trace = sc2.1.trace ++ [⟨s1.clock, .openFile w n (headerRecord env sc2.2)⟩]
            ∧ c1.writer = some w := by
          unfold Saver.rotate; simp only; rw [if_neg hok]
          exact ⟨_, _, (sc2.1.rotateDir env sc2.2).1.nextWriter, ⟨(sc2.1.rotateDir env sc2.2).2, env.uuid sc2.2.id.cookieUint64, sc2.2.sequence⟩, rfl,
            by simp [Saver.emit, hrd], rfl⟩
        obtain ⟨s1, c1, w, n, e1, e2, e3⟩ := e1
        rw [e1] at h
        simp only [e3] at h
        injection h with h; injection h with h _; subst h
        refine trans g ⟨_, ?_, followed_open s1.clock w n (headerRecord env sc2.2) (queueOf env (cookieOf idm)) msg hlen⟩
        simp [Saver.emit, e2]
    · rw [if_neg hw] at h
      injection h with h; injection h with h _; subst h
      exact trans (trans g (self _ { sc2.1 with conns := sc2.1.conns.set (cookieOf idm) sc2.2 } rfl)) (one _ (.send _ _) (by simp))

theorem followed_parts (env : Env) : Parts env Followed := ⟨followed_nil, followed_append, followed_other, followed_queue env⟩

theorem paceRun_snoc (d : Int) (u : String) (st : Option Pace) (tr : List Stamped) (a : Stamped) :
    paceRun d u st (tr ++ [a]) = (paceRun d u st tr).bind (fun st => paceStep d u st a) := by
  induction tr generalizing st with
  | nil =>
    show (paceStep d u st a).bind (fun st => some st) = _
    simp [paceRun]
  | cons x tr ih =>
    simp only [List.cons_append, paceRun]
    cases paceStep d u st x with
    | none => rfl
    | some st' => exact ih st'

theorem opened_append (a b : List Stamped) : opened (a ++ b) = opened a + opened b := by simp [opened]

end TcpInfo
