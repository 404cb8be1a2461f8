import Verif.Spec.EventSocket
/-!
# Invariants of the event server
-/

namespace TcpInfo.EventSocket
open TcpInfo

def State.inHand (env : Env) (s : State) : List FlowEvent := match s.npc with | .got e => good env [e] | _ => []
/-- Connections not yet visited. -/
def State.rem (s : State) : List Nat := match s.npc with | .send _ rem => rem | _ => []

theorem text_append (env : Env) (a b : List FlowEvent) : text env (a ++ b) = text env a ++ text env b := by
  induction a with
  | nil => rfl
  | cons e es ih => simp [text, ih]

theorem good_append (env : Env) (a b : List FlowEvent) : good env (a ++ b) = good env a ++ good env b := by simp [good]

/-- What is known about a connection. -/
def ConnOK (env : Env) (s : State) (c : Nat) : Prop :=
  match s.regAt c with
  | none => s.delivered c = [] ∧ s.failedAt c = none ∧ c ∉ s.clients
  | some k => c ∈ s.known ∧ s.spc ≠ .adding c ∧
    match s.failedAt c with
    | none => c ∈ s.clients ∧ c ∉ s.removing ∧
        (if c ∈ s.rem then k < s.distributed.length ∧ s.delivered c = text env (s.distributed.dropLast.drop k)
         else k ≤ s.distributed.length ∧ s.delivered c = text env (s.distributed.drop k))
    | some j => k ≤ j ∧ j < s.distributed.length ∧ (c ∈ s.clients → c ∈ s.removing) ∧
        ∃ e b n, s.distributed[j]? = some e ∧ env.marshal e = some b ∧ n < (line b).length ∧
          s.delivered c = text env ((s.distributed.take j).drop k) ++ (line b).take n

structure Inv (env : Env) (s : State) : Prop where
  order : s.distributed ++ s.inHand env ++ good env s.queue = good env s.emitted
  nodup : s.clients.Nodup
  remNodup : s.rem.Nodup
  remSub : ∀ c ∈ s.rem, c ∈ s.clients
  last : ∀ b rem, s.npc = .send b rem → ∃ d e, s.distributed = d ++ [e] ∧ env.marshal e = some b
  adding : ∀ c, s.spc = .adding c → c ∈ s.known
  removing : ∀ c ∈ s.removing, s.failedAt c ≠ none
  conn : ∀ c, ConnOK env s c
  cap : s.queue.length ≤ chanCap
  closed : s.closed = true → s.cancelled = true
  crashed : s.crashed = true → s.closed = true ∧ s.todo ≠ []

theorem inv_init (env : Env) (todo : List FlowEvent) : Inv env (init todo) := by
  constructor <;> simp [init, State.inHand, State.rem, good, ConnOK]

/-- Steps that concern no connection keep what is known about them. -/
theorem conn_frame {env : Env} {s s' : State} (h : ∀ c, ConnOK env s c) (h1 : s'.regAt = s.regAt) (h2 : s'.delivered = s.delivered)
    (h3 : s'.failedAt = s.failedAt) (h4 : s'.clients = s.clients) (h5 : s'.known = s.known) (h6 : s'.removing = s.removing) (h7 : s'.rem = s.rem)
    (h8 : s'.distributed = s.distributed) (h9 : ∀ c, s'.spc = .adding c → s.spc = .adding c) (c : Nat) : ConnOK env s' c := by
  have hc := h c
  unfold ConnOK at hc ⊢
  rw [h1, h2, h3, h4, h5, h6, h7, h8]
  split
  · rename_i hr; rw [hr] at hc; exact hc
  · rename_i k hr
    rw [hr] at hc
    exact ⟨hc.1, fun e => hc.2.1 (h9 c e), hc.2.2⟩

theorem inv_produce {env : Env} {s s' : State} (hi : Inv env s) (h : s.produce = some s') : Inv env s' := by
  unfold State.produce at h
  cases ht : s.todo with
  | nil => rw [ht] at h; simp at h
  | cons e todo =>
    rw [ht] at h
    simp only at h
    split at h
    · rename_i hcl
      injection h with h; subst h
      exact { hi with
              order := hi.order, nodup := hi.nodup, remNodup := hi.remNodup, remSub := hi.remSub, last := hi.last, adding := hi.adding,
              removing := hi.removing, conn := hi.conn, cap := hi.cap, closed := hi.closed, crashed := fun _ => ⟨hcl, by simp [ht]⟩ }
    · split at h
      · rename_i hcl hlt
        injection h with h; subst h
        refine ⟨?_, hi.nodup, hi.remNodup, hi.remSub, hi.last, hi.adding, hi.removing, hi.conn, ?_, hi.closed, ?_⟩
        · have := hi.order
          simp only [good_append, ← this]
          simp [State.inHand]
        · simp only [List.length_append, List.length_singleton]; exact hlt
        · intro hc; exact absurd (hi.crashed hc).1 hcl
      · simp at h

theorem drop_dropLast_append {α : Type} (d : List α) (e : α) (k : Nat) (h : k ≤ d.length) : (d ++ [e]).drop k = d.drop k ++ [e] := by
  rw [List.drop_append_of_le_length h]

theorem inv_notify {env : Env} {s s' : State} (hi : Inv env s) (hcr : s.crashed = false) (h : s.notify env = some s') : Inv env s' := by
  unfold State.notify at h
  have ho := hi.order
  cases hn : s.npc with
  | check =>
    rw [hn] at h; simp only at h; injection h with h; subst h
    have hrem : State.rem { s with npc := if s.cancelled then .exited else .recv } = s.rem := by
      simp only [State.rem, hn]; cases s.cancelled <;> rfl
    refine ⟨?_, hi.nodup, ?_, ?_, ?_, hi.adding, hi.removing, conn_frame hi.conn rfl rfl rfl rfl rfl rfl hrem rfl (fun _ h => h), hi.cap, hi.closed, hi.crashed⟩
    · rw [← ho]; simp only [State.inHand, hn]; cases s.cancelled <;> simp
    · rw [hrem]; exact hi.remNodup
    · rw [hrem]; exact hi.remSub
    · intro b r hb; simp only at hb; split at hb <;> simp at hb
  | recv =>
    rw [hn] at h; simp only at h
    cases hq : s.queue with
    | nil =>
      have h : (if s.closed = true then some { s with npc := .check } else none) = some s' := by
        simpa only [hq] using (show (match s.queue with | e :: queue => some { s with npc := .got e, queue := queue } | [] => if s.closed then some { s with npc := .check } else none) = some s' from h)
      split at h
      · injection h with h; subst h
        have hrem : State.rem { s with npc := .check } = s.rem := by simp [State.rem, hn]
        refine ⟨?_, hi.nodup, ?_, ?_, ?_, hi.adding, hi.removing, conn_frame hi.conn rfl rfl rfl rfl rfl rfl hrem rfl (fun _ h => h), hi.cap, hi.closed, hi.crashed⟩
        · rw [← ho]; simp [State.inHand, hn]
        · rw [hrem]; exact hi.remNodup
        · rw [hrem]; exact hi.remSub
        · intro b r hb; simp at hb
      · simp at h
    | cons e queue =>
      rw [hq] at h; simp only at h
      injection h with h; subst h
      have hrem : State.rem { s with npc := .got e, queue := queue } = s.rem := by simp [State.rem, hn]
      refine ⟨?_, hi.nodup, ?_, ?_, ?_, hi.adding, hi.removing, conn_frame hi.conn rfl rfl rfl rfl rfl rfl hrem rfl (fun _ h => h), ?_, hi.closed, hi.crashed⟩
      · rw [← ho]; simp only [State.inHand, hn, hq]
        rw [show e :: queue = [e] ++ queue from rfl, good_append]; simp
      · rw [hrem]; exact hi.remNodup
      · rw [hrem]; exact hi.remSub
      · intro b r hb; simp at hb
      · have := hi.cap; rw [hq] at this; simp at this ⊢; omega
  | got e =>
    rw [hn] at h; simp only at h
    cases hm : env.marshal e with
    | none =>
      rw [hm] at h; simp only at h; injection h with h; subst h
      have hrem : State.rem { s with npc := .check } = s.rem := by simp [State.rem, hn]
      refine ⟨?_, hi.nodup, ?_, ?_, ?_, hi.adding, hi.removing, conn_frame hi.conn rfl rfl rfl rfl rfl rfl hrem rfl (fun _ h => h), hi.cap, hi.closed, hi.crashed⟩
      · rw [← ho]; simp [State.inHand, hn, good, hm]
      · rw [hrem]; exact hi.remNodup
      · rw [hrem]; exact hi.remSub
      · intro b r hb; simp at hb
    | some b =>
      rw [hm] at h; simp only at h; injection h with h; subst h
      refine ⟨?_, hi.nodup, hi.nodup, fun c hc => hc, ?_, hi.adding, hi.removing, ?_, hi.cap, hi.closed, hi.crashed⟩
      · rw [← ho]; simp [State.inHand, hn, good, hm]
      · intro b' r hb
        simp only [NPC.send.injEq] at hb
        exact ⟨s.distributed, e, rfl, by rw [hm, hb.1]⟩
      · intro c
        have hc := hi.conn c
        unfold ConnOK at hc ⊢
        simp only
        split
        · rename_i hr; rw [hr] at hc; exact hc
        · rename_i k hr
          rw [hr] at hc
          simp only at hc
          refine ⟨hc.1, hc.2.1, ?_⟩
          have hc := hc.2.2
          split
          · rename_i hf
            rw [hf] at hc
            simp only at hc
            have hre : s.rem = [] := by simp [State.rem, hn]
            rw [if_neg (by simp [hre])] at hc
            refine ⟨hc.1, hc.2.1, ?_⟩
            rw [if_pos (by simp only [State.rem]; exact hc.1)]
            refine ⟨by simp; have := hc.2.2.1; omega, ?_⟩
            rw [List.dropLast_concat]; exact hc.2.2.2
          · rename_i j hf
            rw [hf] at hc
            simp only at hc
            obtain ⟨h1, h2, h3, e', b', n, h4, h5, h6, h7⟩ := hc
            refine ⟨h1, by simp; omega, h3, e', b', n, ?_, h5, h6, ?_⟩
            · rw [List.getElem?_append_left h2]; exact h4
            · rw [List.take_append_of_le_length (by omega)]; exact h7
  | send b rem =>
    rw [hn] at h
    cases rem with
    | nil =>
      simp only at h; injection h with h; subst h
      have hrem : State.rem { s with npc := .check } = s.rem := by simp [State.rem, hn]
      refine ⟨?_, hi.nodup, ?_, ?_, ?_, hi.adding, hi.removing, conn_frame hi.conn rfl rfl rfl rfl rfl rfl hrem rfl (fun _ h => h), hi.cap, hi.closed, hi.crashed⟩
      · rw [← ho]; simp [State.inHand, hn]
      · rw [hrem]; exact hi.remNodup
      · rw [hrem]; exact hi.remSub
      · intro b r hb; simp at hb
    | cons c rem => simp at h
  | exited => rw [hn] at h; simp at h

/-- Delivering (part of) the current line to `c`. -/
theorem inv_visit {env : Env} {s s' : State} {c : Nat} {b : Bytes} {rem : List Nat} (hi : Inv env s) (hn : s.npc = .send b rem) (hc : c ∈ rem)
    (h1 : s'.npc = .send b (rem.erase c)) (h2 : s'.clients = s.clients) (h3 : s'.distributed = s.distributed) (h4 : s'.known = s.known)
    (h5 : s'.regAt = s.regAt) (h6 : s'.spc = s.spc) (h7 : s'.queue = s.queue) (h8 : s'.emitted = s.emitted) (h9 : s'.closed = s.closed)
    (h10 : s'.cancelled = s.cancelled) (h11 : s'.crashed = s.crashed) (h12 : s'.todo = s.todo)
    (hd : ∀ x, x ≠ c → s'.delivered x = s.delivered x) (hf : ∀ x, x ≠ c → s'.failedAt x = s.failedAt x)
    (hr : ∀ x, x ≠ c → (x ∈ s'.removing ↔ x ∈ s.removing))
    (hok : (s.failedAt c = none ∧ s'.failedAt c = none ∧ s'.removing = s.removing ∧ s'.delivered c = s.delivered c ++ line b)
      ∨ (s.failedAt c = none ∧ s'.failedAt c = some (s.distributed.length - 1) ∧ c ∈ s'.removing ∧
          ∃ n, n < (line b).length ∧ s'.delivered c = s.delivered c ++ (line b).take n)
      ∨ (∃ j, s.failedAt c = some j ∧ s'.failedAt c = some j ∧ c ∈ s'.removing ∧ s'.delivered c = s.delivered c)) : Inv env s' := by
  have hrem : s.rem = rem := by simp [State.rem, hn]
  have hrem' : s'.rem = rem.erase c := by simp [State.rem, h1]
  have hnd : rem.Nodup := hrem ▸ hi.remNodup
  obtain ⟨d, e, hde, hm⟩ := hi.last b rem hn
  have hcl : c ∈ s.clients := hi.remSub c (hrem ▸ hc)
  constructor
  · rw [h3, h7, h8, ← hi.order]; simp [State.inHand, h1, hn]
  · rw [h2]; exact hi.nodup
  · rw [hrem']; exact hnd.erase c
  · intro x hx; rw [hrem'] at hx; rw [h2]; exact hi.remSub x (hrem ▸ List.mem_of_mem_erase hx)
  · intro b' r hb
    rw [h1] at hb
    simp only [NPC.send.injEq] at hb
    exact ⟨d, e, by rw [h3, hde], by rw [hm, hb.1]⟩
  · intro x hx; rw [h4]; exact hi.adding x (h6 ▸ hx)
  · intro x hx
    by_cases hxc : x = c
    · subst hxc
      rcases hok with h | h | ⟨j, h⟩
      · rw [h.2.2.1] at hx; exact absurd h.1 (hi.removing _ hx)
      · rw [h.2.1]; simp
      · rw [h.2.1]; simp
    · rw [hf x hxc]; exact hi.removing x ((hr x hxc).1 hx)
  · intro x
    have hx := hi.conn x
    unfold ConnOK at hx ⊢
    rw [h5, h2, h4, h6, h3, hrem']
    rw [hrem] at hx
    by_cases hxc : x = c
    · subst hxc
      cases hreg : s.regAt x with
      | none => rw [hreg] at hx; exact absurd hcl hx.2.2
      | some k =>
        rw [hreg] at hx
        simp only at hx ⊢
        refine ⟨hx.1, hx.2.1, ?_⟩
        have hx := hx.2.2
        have hne : x ∉ rem.erase x := fun hm => (hnd.mem_erase_iff.1 hm).1 rfl
        rcases hok with h | h | ⟨j, h⟩
        · rw [h.1] at hx
          simp only [if_pos hc] at hx
          rw [h.2.1]
          simp only [if_neg hne]
          refine ⟨hx.1, h.2.2.1 ▸ hx.2.1, Nat.le_of_lt hx.2.2.1, ?_⟩
          have hlen : k ≤ d.length := by have := hx.2.2.1; rw [hde] at this; simp at this; omega
          rw [h.2.2.2, hx.2.2.2, hde, List.dropLast_concat, drop_dropLast_append d e k hlen, text_append]
          simp [text, hm, line]
        · rw [h.1] at hx
          simp only [if_pos hc] at hx
          rw [h.2.1]
          simp only
          obtain ⟨n, hn1, hn2⟩ := h.2.2.2
          have hl : s.distributed.length - 1 = d.length := by rw [hde]; simp
          have hk := hx.2.2.1
          refine ⟨by omega, by omega, fun _ => h.2.2.1, e, b, n, by rw [hl, hde]; simp, hm, hn1, ?_⟩
          rw [hn2, hx.2.2.2, hl, hde, List.dropLast_concat, List.take_left]
        · rw [h.1] at hx
          rw [h.2.1]
          simp only at hx ⊢
          refine ⟨hx.1, hx.2.1, fun _ => h.2.2.1, ?_⟩
          rw [h.2.2.2]; exact hx.2.2.2
    · rw [hd x hxc, hf x hxc]
      have hme : x ∈ rem.erase c ↔ x ∈ rem := List.mem_erase_of_ne hxc
      simp only [hme, hr x hxc]
      exact hx
  · rw [h7]; exact hi.cap
  · rw [h9, h10]; exact hi.closed
  · rw [h11, h9, h12]; exact hi.crashed

theorem inv_step {env : Env} {s s' : State} {c : Choice} (hi : Inv env s) (h : s.step env c = some s') : Inv env s' := by
  unfold State.step at h
  split at h
  · simp at h
  rename_i hcr
  have hcr : s.crashed = false := by simpa using hcr
  cases c with
  | produce => exact inv_produce hi h
  | notify => exact inv_notify hi hcr h
  | cancel =>
    simp only at h
    split at h
    · simp at h
    · injection h with h; subst h
      exact ⟨hi.order, hi.nodup, hi.remNodup, hi.remSub, hi.last, hi.adding, hi.removing, hi.conn, hi.cap, fun _ => rfl, hi.crashed⟩
  | cleanup =>
    simp only at h
    split at h
    · rename_i hc
      simp at hc
      injection h with h; subst h
      exact ⟨hi.order, hi.nodup, hi.remNodup, hi.remSub, hi.last, hi.adding, hi.removing, hi.conn, hi.cap, fun _ => hc.1, fun hx => by simp [hcr] at hx⟩
    · simp at h
  | accept c =>
    simp only at h
    split at h
    · rename_i hc
      injection h with h; subst h
      refine ⟨hi.order, hi.nodup, hi.remNodup, hi.remSub, hi.last, ?_, hi.removing, ?_, hi.cap, hi.closed, hi.crashed⟩
      · intro x hx; simp at hx; simp [hx]
      · intro x
        have hx := hi.conn x
        unfold ConnOK at hx ⊢
        simp only
        cases hreg : s.regAt x with
        | none => rw [hreg] at hx; exact hx
        | some k =>
          rw [hreg] at hx
          refine ⟨by simp [hx.1], ?_, hx.2.2⟩
          intro he
          injection he with he
          exact hc.2.2 (he ▸ hx.1)
    · simp at h
  | serve =>
    simp only at h
    cases hs : s.spc with
    | accept =>
      rw [hs] at h; simp only at h
      split at h
      · injection h with h; subst h
        exact ⟨hi.order, hi.nodup, hi.remNodup, hi.remSub, hi.last, fun c hc => by simp at hc, hi.removing,
          conn_frame hi.conn rfl rfl rfl rfl rfl rfl rfl rfl (fun _ h => by simp at h), hi.cap, hi.closed, hi.crashed⟩
      · simp at h
    | exited => rw [hs] at h; simp at h
    | adding c =>
      rw [hs] at h; simp only at h
      split at h
      · simp at h
      rename_i hl
      injection h with h; subst h
      have hreg : s.regAt c = none := by
        cases hr : s.regAt c with
        | none => rfl
        | some k => have := hi.conn c; unfold ConnOK at this; rw [hr] at this; exact absurd hs this.2.1
      have hcc := hi.conn c
      unfold ConnOK at hcc
      rw [hreg] at hcc
      simp only at hcc
      have hrem : s.rem = [] := by
        unfold State.locked at hl; unfold State.rem
        cases hn : s.npc <;> simp [hn] at hl ⊢
      refine ⟨hi.order, ?_, hi.remNodup, ?_, hi.last, fun c hc => by simp at hc, hi.removing, ?_, hi.cap, hi.closed, hi.crashed⟩
      · simp only [List.nodup_append, hi.nodup, true_and]
        exact ⟨by simp, fun a ha b hb => by simp at hb; subst hb; exact fun e => hcc.2.2 (e ▸ ha)⟩
      · intro x hx; simp only; exact List.mem_append_left _ (hi.remSub x hx)
      · intro x
        have hx := hi.conn x
        unfold ConnOK at hx ⊢
        simp only
        by_cases hxc : x = c
        · subst hxc
          simp only [upd, if_pos, hcc.2.1]
          refine ⟨hi.adding x hs, by simp, by simp, ?_, ?_⟩
          · intro hr; exact hi.removing x hr hcc.2.1
          · rw [if_neg (by show x ∉ s.rem; simp [hrem])]
            exact ⟨by simp, by simp [hcc.1, text]⟩
        · simp only [upd, if_neg hxc]
          cases hr : s.regAt x with
          | none => rw [hr] at hx; simp only at hx ⊢; exact ⟨hx.1, hx.2.1, by simp [hx.2.2, hxc]⟩
          | some k =>
            rw [hr] at hx
            simp only at hx ⊢
            refine ⟨hx.1, by simp, ?_⟩
            have hx := hx.2.2
            cases hf : s.failedAt x with
            | none => rw [hf] at hx; exact ⟨by simp [hx.1], hx.2⟩
            | some j => rw [hf] at hx; exact ⟨hx.1, hx.2.1, fun hm => hx.2.2.1 (by simpa [hxc] using hm), hx.2.2.2⟩
  | remove c =>
    simp only at h
    split at h
    · rename_i hc
      injection h with h; subst h
      have hrem : s.rem = [] := by
        have hl := hc.2
        unfold State.locked at hl; unfold State.rem
        cases hn : s.npc <;> simp [hn] at hl ⊢
      refine ⟨hi.order, hi.nodup.filter _, hi.remNodup, ?_, hi.last, hi.adding, fun x hx => hi.removing x (List.mem_of_mem_erase hx), ?_, hi.cap, hi.closed, hi.crashed⟩
      · intro x hx; have : x ∈ s.rem := hx; simp [hrem] at this
      · intro x
        have hx := hi.conn x
        unfold ConnOK at hx ⊢
        simp only
        cases hr : s.regAt x with
        | none => rw [hr] at hx; exact ⟨hx.1, hx.2.1, fun hm => hx.2.2 (List.mem_filter.1 hm).1⟩
        | some k =>
          rw [hr] at hx
          simp only at hx ⊢
          refine ⟨hx.1, hx.2.1, ?_⟩
          have hx := hx.2.2
          cases hf : s.failedAt x with
          | none =>
            rw [hf] at hx
            have hxc : x ≠ c := fun e => hi.removing c hc.1 (e ▸ hf)
            exact ⟨List.mem_filter.2 ⟨hx.1, by simpa using hxc⟩, fun hm => hx.2.1 (List.mem_of_mem_erase hm), hx.2.2⟩
          | some j =>
            rw [hf] at hx
            refine ⟨hx.1, hx.2.1, ?_, hx.2.2.2⟩
            intro hm
            have hm := List.mem_filter.1 hm
            have hxc : x ≠ c := by simpa using hm.2
            exact (List.mem_erase_of_ne hxc).2 (hx.2.2.1 hm.1)
    · simp at h
  | write c =>
    simp only at h
    cases hn : s.npc with
    | send b rem =>
      rw [hn] at h; simp only at h
      split at h
      · rename_i hc
        injection h with h; subst h
        refine inv_visit hi hn hc.1 rfl rfl rfl rfl rfl rfl rfl rfl rfl rfl rfl rfl ?_ (fun _ _ => rfl) (fun _ _ => Iff.rfl) (Or.inl ⟨hc.2.1, hc.2.1, rfl, ?_⟩)
        · intro x hx; simp [upd, hx]
        · simp [upd]
      · simp at h
    | _ => rw [hn] at h; simp at h
  | fail c k =>
    simp only at h
    cases hn : s.npc with
    | send b rem =>
      rw [hn] at h; simp only at h
      split at h
      · rename_i hc
        cases hf : s.failedAt c with
        | some j =>
          rw [hf] at h; simp only at h
          injection h with h; subst h
          exact inv_visit hi hn hc rfl rfl rfl rfl rfl rfl rfl rfl rfl rfl rfl rfl (fun _ _ => rfl) (fun _ _ => rfl) (fun x hx => by simp [hx])
            (Or.inr (Or.inr ⟨j, hf, hf, by simp, rfl⟩))
        | none =>
          rw [hf] at h; simp only at h
          split at h
          · rename_i hk
            injection h with h; subst h
            refine inv_visit hi hn hc rfl rfl rfl rfl rfl rfl rfl rfl rfl rfl rfl rfl ?_ ?_ (fun x hx => by simp [hx])
              (Or.inr (Or.inl ⟨hf, by simp [upd], by simp, k, hk, by simp [upd]⟩))
            · intro x hx; simp [upd, hx]
            · intro x hx; simp [upd, hx]
          · simp at h
      · simp at h
    | _ => rw [hn] at h; simp at h

theorem inv_exec {env : Env} : ∀ (cs : List Choice) {s s' : State}, Inv env s → s.exec env cs = some s' → Inv env s'
  | [], s, s', hi, h => by simp [State.exec] at h; exact h ▸ hi
  | c :: cs, s, s', hi, h => by
    simp only [State.exec, Option.bind_eq_some_iff] at h
    obtain ⟨s1, h1, h2⟩ := h
    exact inv_exec cs (inv_step hi h1) h2

theorem inv_reachable {env : Env} {todo : List FlowEvent} {s : State} (h : Reachable env todo s) : Inv env s := by
  obtain ⟨cs, h⟩ := h
  exact inv_exec cs (inv_init env todo) h

end TcpInfo.EventSocket
