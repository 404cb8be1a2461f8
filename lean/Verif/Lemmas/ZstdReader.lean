import Verif.Model.ZstdReader
/-!
# Invariants of the zstd reader
-/

namespace TcpInfo.Zstd
open TcpInfo

/-- What holds of a reader at any time. -/
structure DInv (data : Bytes) (good : Bool) (s : DState) : Prop where
  sameData : s.data = data
  sameGood : s.good = good
  flow : s.received ++ s.pipe ++ s.rest = data
  ok : s.child = .exited true → s.rest = [] ∧ good = true
  gor : s.gpc ≠ .run → s.child = .exited true
  wOpen : s.wOpen = false ↔ s.gpc = .finished
  eof : s.eof = true → s.pipe = [] ∧ s.gpc = .finished
  fatal : s.fatal = true → s.child = .exited false

theorem dinv_init (data : Bytes) (good : Bool) (s : DState) (h : newReader true true data good = some s) : DInv data good s := by
  simp only [newReader, Bool.and_self, if_true, Option.some.injEq] at h
  subst h
  constructor <;> simp

theorem dinv_step {cap : Nat} {data : Bytes} {good : Bool} {s s' : DState} {c : DChoice} (hi : DInv data good s) (h : s.step cap c = some s') :
    DInv data good s' := by
  obtain ⟨h1, h2, h3, h4, h5, h6, h7, h8⟩ := hi
  obtain ⟨d, g, r, ch, gp, p, rO, wO, rc, e, f⟩ := s
  unfold DState.step at h
  simp only at h1 h2 h3 h4 h5 h6 h7 h8
  split at h
  · simp at h
  · cases c with
    | gor ok =>
      simp only [DState.gorStep] at h
      cases gp with
      | run =>
        cases ch with
        | notStarted => cases ok <;> simp at h <;> subst h <;> constructor <;> simp_all
        | running => simp at h
        | exited b => cases b <;> simp at h <;> subst h <;> constructor <;> simp_all
      | closeW => simp at h; subst h; constructor <;> simp_all
      | finished => simp at h
    | write k =>
      simp only [DState.childWrite] at h
      split at h
      · rename_i hc
        obtain ⟨hc, -, hk⟩ := hc
        split at h
        · injection h with h; subst h
          constructor <;> simp_all
        · split at h
          · injection h with h; subst h
            constructor <;> simp_all
          · simp at h
      · simp at h
    | finish =>
      simp only at h
      split at h
      · injection h with h; subst h
        constructor <;> simp_all
      · simp at h
    | crash =>
      simp only at h
      split at h
      · injection h with h; subst h
        constructor <;> simp_all
      · simp at h
    | read k =>
      simp only [DState.userRead] at h
      split at h
      · simp at h
      · split at h
        · injection h with h; subst h
          constructor <;> simp_all
        · split at h
          · injection h with h; subst h
            constructor <;> simp_all
          · simp at h
    | close =>
      simp only at h
      split at h
      · injection h with h; subst h
        constructor <;> simp_all
      · simp at h

theorem dexec_inv {cap : Nat} {data : Bytes} {good : Bool} (cs : List DChoice) {s s' : DState} (hi : DInv data good s) (h : s.exec cap cs = some s') :
    DInv data good s' := by
  induction cs generalizing s with
  | nil => simp only [DState.exec] at h; injection h with h; subst h; exact hi
  | cons c cs ih =>
    simp only [DState.exec] at h
    obtain ⟨s1, h1, h2⟩ := Option.bind_eq_some_iff.1 h
    exact ih (dinv_step hi h1) h2

theorem dinv_reachable {cap : Nat} {data : Bytes} {good : Bool} {s : DState} (h : DReachable cap data good s) : DInv data good s := by
  obtain ⟨s0, cs, h0, h⟩ := h
  exact dexec_inv cs (dinv_init data good s0 h0) h

/-- A bound for the number of steps until end of file is read. -/
def DState.measure (s : DState) : Nat :=
  2 * s.rest.length + s.pipe.length + (match s.child with | .notStarted => 2 | .running => 1 | .exited _ => 0)
    + (match s.gpc with | .run => 2 | .closeW => 1 | .finished => 0) + (if s.rOpen then 1 else 0) + (if s.fatal then 0 else 1)

theorem measure_step {cap : Nat} {s s' : DState} {c : DChoice} (h : s.step cap c = some s') (he : s'.eof = false) : s.eof = false ∧ s'.measure < s.measure := by
  obtain ⟨d, g, r, ch, gp, p, rO, wO, rc, e, f⟩ := s
  unfold DState.step at h
  split at h
  · simp at h
  · rename_i hf
    simp only at hf
    cases c with
    | gor ok =>
      simp only [DState.gorStep] at h
      cases gp with
      | run =>
        cases ch with
        | notStarted => cases ok <;> simp at h <;> subst h <;> simp_all [DState.measure] <;> omega
        | running => simp at h
        | exited b => cases b <;> simp at h <;> subst h <;> simp_all [DState.measure] <;> omega
      | closeW => simp at h; subst h; simp_all [DState.measure]
      | finished => simp at h
    | write k =>
      simp only [DState.childWrite] at h
      split at h
      · rename_i hc
        obtain ⟨hc, h0, hk⟩ := hc
        split at h
        · injection h with h; subst h
          simp_all [DState.measure]
        · split at h
          · injection h with h; subst h
            simp_all [DState.measure]; omega
          · simp at h
      · simp at h
    | finish =>
      simp only at h
      split at h
      · injection h with h; subst h
        simp_all [DState.measure]
      · simp at h
    | crash =>
      simp only at h
      split at h
      · injection h with h; subst h
        simp_all [DState.measure]
      · simp at h
    | read k =>
      simp only [DState.userRead] at h
      split at h
      · simp at h
      · split at h
        · injection h with h; subst h
          simp_all [DState.measure]; omega
        · split at h
          · injection h with h; subst h
            simp at he
          · simp at h
    | close =>
      simp only at h
      split at h
      · injection h with h; subst h
        simp_all [DState.measure]
      · simp at h

theorem measure_exec {cap : Nat} (cs : List DChoice) {s s' : DState} (h : s.exec cap cs = some s') (he : s'.eof = false) :
    s.eof = false ∧ cs.length + s'.measure ≤ s.measure := by
  induction cs generalizing s with
  | nil => simp only [DState.exec] at h; injection h with h; subst h; exact ⟨he, by simp⟩
  | cons c cs ih =>
    simp only [DState.exec] at h
    obtain ⟨s1, h1, h2⟩ := Option.bind_eq_some_iff.1 h
    obtain ⟨e1, m1⟩ := ih h2
    obtain ⟨e0, m0⟩ := measure_step h1 e1
    exact ⟨e0, by simp only [List.length_cons]; omega⟩

/-- The reader has been closed while the decompressor has more to write. -/
structure Doomed (s : DState) : Prop where
  closed : s.rOpen = false
  more : s.rest ≠ []
  child : s.child = .running ∨ s.child = .exited false
  gor : s.gpc = .run
  eof : s.eof = false

theorem doomed_step {cap : Nat} {s s' : DState} {c : DChoice} (hd : Doomed s) (h : s.step cap c = some s') : Doomed s' := by
  obtain ⟨h1, h2, h3, h4, h5⟩ := hd
  obtain ⟨d, g, r, ch, gp, p, rO, wO, rc, e, f⟩ := s
  simp only at h1 h2 h3 h4 h5
  subst h1 h4 h5
  unfold DState.step at h
  split at h
  · simp at h
  · cases c with
    | gor ok =>
      simp only [DState.gorStep] at h
      rcases h3 with rfl | rfl
      · simp at h
      · simp at h; subst h; constructor <;> simp_all
    | write k =>
      simp only [DState.childWrite] at h
      split at h
      · simp at h; subst h; constructor <;> simp_all
      · simp at h
    | finish => simp [h2] at h
    | crash =>
      simp only at h
      split at h
      · injection h with h; subst h
        constructor <;> simp_all
      · simp at h
    | read k => simp [DState.userRead] at h
    | close => simp at h

theorem doomed_exec {cap : Nat} (cs : List DChoice) {s s' : DState} (hd : Doomed s) (h : s.exec cap cs = some s') : Doomed s' := by
  induction cs generalizing s with
  | nil => simp only [DState.exec] at h; injection h with h; subst h; exact hd
  | cons c cs ih =>
    simp only [DState.exec] at h
    obtain ⟨s1, h1, h2⟩ := Option.bind_eq_some_iff.1 h
    exact ih (doomed_step hd h1) h2

end TcpInfo.Zstd
