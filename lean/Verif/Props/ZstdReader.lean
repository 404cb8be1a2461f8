import Verif.Lemmas.ZstdReader
/-!
# C70, C71: the zstd reader
-/

namespace TcpInfo
open Zstd (DReachable DState DChoice newReader)

/-- C70. At any moment of any schedule, whatever fails, the user has read a prefix of the decompressed data. -/
theorem C70_prefix (cap : Nat) (data : Bytes) (good : Bool) (s : DState) (h : DReachable cap data good s) : s.received <+: data := by
  have hi := Zstd.dinv_reachable h
  rw [← hi.flow, List.append_assoc]
  exact List.prefix_append _ _

/-- C70. End of file is read only after all data of a complete, undamaged file: a damaged or truncated file, or a failure of the decompressor, never looks
like a clean end. -/
theorem C70_eof (cap : Nat) (data : Bytes) (good : Bool) (s : DState) (h : DReachable cap data good s) (he : s.eof = true) :
    s.received = data ∧ good = true := by
  have hi := Zstd.dinv_reachable h
  obtain ⟨hp, hg⟩ := hi.eof he
  obtain ⟨hr, hgood⟩ := hi.ok (hi.gor (by rw [hg]; simp))
  have := hi.flow
  rw [hp, hr] at this
  exact ⟨by simpa using this, hgood⟩

/-- C70. While the user goes on reading a good file and nothing fails, some step is possible until end of file is read. -/
theorem C70_progress (cap : Nat) (hcap : 0 < cap) (data : Bytes) (s : DState) (h : DReachable cap data true s) (hr : s.rOpen = true) (he : s.eof = false)
    (hc : s.child ≠ .exited false) : ∃ c s', c ≠ .crash ∧ c ≠ .gor false ∧ c ≠ .close ∧ s.step cap c = some s' := by
  have hi := Zstd.dinv_reachable h
  have hf : s.fatal = false := by
    cases hf : s.fatal with
    | false => rfl
    | true => exact absurd (hi.fatal hf) hc
  by_cases hp : s.pipe = []
  · cases hch : s.child with
    | notStarted =>
      have hg : s.gpc = .run := by
        cases hg : s.gpc with
        | run => rfl
        | closeW => exact absurd (hi.gor (by rw [hg]; simp)) (by rw [hch]; simp)
        | finished => exact absurd (hi.gor (by rw [hg]; simp)) (by rw [hch]; simp)
      exact ⟨.gor true, by simp [DState.step, DState.gorStep, hf, hg, hch]⟩
    | running =>
      by_cases hrest : s.rest = []
      · exact ⟨.finish, by simp [DState.step, hf, hch, hrest]⟩
      · have : 1 ≤ s.rest.length := List.length_pos_iff.2 hrest
        refine ⟨.write 1, { s with pipe := s.pipe ++ s.rest.take 1, rest := s.rest.drop 1 }, by simp, by simp, by simp, ?_⟩
        simp only [DState.step, hf, Bool.false_eq_true, if_false, DState.childWrite]
        rw [if_pos ⟨hch, by omega, this⟩, if_neg (by rw [hr]; simp), if_pos (by rw [hp]; simp; omega)]
    | exited ok =>
      cases ok with
      | false => exact absurd hch hc
      | true =>
        cases hg : s.gpc with
        | run => exact ⟨.gor true, by simp [DState.step, DState.gorStep, hf, hg, hch]⟩
        | closeW => exact ⟨.gor true, by simp [DState.step, DState.gorStep, hf, hg]⟩
        | finished =>
          have hw := hi.wOpen.2 hg
          exact ⟨.read 0, by simp [DState.step, DState.userRead, hf, hr, hp, hw, hch]⟩
  · have : 1 ≤ s.pipe.length := List.length_pos_iff.2 hp
    refine ⟨.read 1, { s with pipe := s.pipe.drop 1, received := s.received ++ s.pipe.take 1 }, by simp, by simp, by simp, ?_⟩
    simp only [DState.step, hf, Bool.false_eq_true, if_false, DState.userRead]
    rw [if_neg (by rw [hr]; simp), if_pos ⟨by omega, this⟩]

/-- C70. Every schedule comes to an end of file, or to an end, within a number of steps that depends on the length of the data only. -/
theorem C70_terminates (cap : Nat) (data : Bytes) (good : Bool) (s0 s : DState) (h0 : newReader true true data good = some s0) (cs : List DChoice)
    (h : s0.exec cap cs = some s) (he : s.eof = false) : cs.length ≤ 2 * data.length + 6 := by
  have := (Zstd.measure_exec cs h he).2
  simp only [newReader, Bool.and_self, if_true, Option.some.injEq] at h0
  subst h0
  simp [DState.measure] at this
  omega

/-- C70. When end of file has been read and the reader closed, nothing is left: both ends of the pipe are closed, decompressor and goroutine are over. -/
theorem C70_released (cap : Nat) (data : Bytes) (good : Bool) (s : DState) (h : DReachable cap data good s) (he : s.eof = true) (hr : s.rOpen = false) :
    s.wOpen = false ∧ s.rOpen = false ∧ s.gpc = .finished ∧ s.child = .exited true := by
  have hi := Zstd.dinv_reachable h
  obtain ⟨-, hg⟩ := hi.eof he
  exact ⟨hi.wOpen.2 hg, hr, hg, hi.gor (by rw [hg]; simp)⟩

/-! ## C71 -/

/-- C71 (partial: the user has read to the end; `C71_violated`). The reader never ends the process. -/
theorem C71_harmless_partial (cap : Nat) (data : Bytes) (good : Bool) (s : DState) (h : DReachable cap data good s) (he : s.eof = true) : s.fatal = false := by
  have hi := Zstd.dinv_reachable h
  have := hi.gor (by rw [(hi.eof he).2]; simp)
  cases hf : s.fatal with
  | false => rfl
  | true => rw [hi.fatal hf] at this; simp at this

/-- C71 violated, in general: once the reader is closed while the decompressor has more to write, the process will be ended, in every schedule: all steps
that are possible lead to `log.Fatal`, after a bounded number of steps. -/
theorem C71_violated_always (cap : Nat) (data : Bytes) (good : Bool) (s : DState) (h : DReachable cap data good s) (hc : s.rOpen = false)
    (hr : s.child = .running) (hm : s.rest ≠ []) (cs : List DChoice) (s' : DState) (hs : s.exec cap cs = some s') :
    cs.length ≤ 2 * data.length + 6 ∧ ((∀ c, s'.step cap c = none) → s'.fatal = true) := by
  have hi := Zstd.dinv_reachable h
  have hg : s.gpc = .run := by
    cases hg : s.gpc with
    | run => rfl
    | closeW => exact absurd (hi.gor (by rw [hg]; simp)) (by rw [hr]; simp)
    | finished => exact absurd (hi.gor (by rw [hg]; simp)) (by rw [hr]; simp)
  have he : s.eof = false := by
    cases he : s.eof with
    | false => rfl
    | true => have := (hi.eof he).2; rw [hg] at this; simp at this
  have hd : Zstd.Doomed s := ⟨hc, hm, Or.inl hr, hg, he⟩
  have hd' := Zstd.doomed_exec cs hd hs
  constructor
  · have := (Zstd.measure_exec cs hs hd'.eof).2
    have hl := congrArg List.length hi.flow
    simp only [List.length_append] at hl
    have hb : s.measure ≤ 2 * data.length + 6 := by
      have h1 : (if s.fatal = true then 0 else 1) ≤ 1 := by split <;> omega
      simp only [DState.measure, hr, hg, hc, Bool.false_eq_true, if_false]
      omega
    omega
  · intro hn
    cases hf : s'.fatal with
    | true => rfl
    | false =>
      rcases hd'.child with hch | hch
      · have := hn (.write 1)
        simp only [DState.step, hf, Bool.false_eq_true, if_false, DState.childWrite] at this
        rw [if_pos ⟨hch, by omega, List.length_pos_iff.2 hd'.more⟩, if_pos hd'.closed] at this
        simp at this
      · have := hn (.gor true)
        simp [DState.step, hf, DState.gorStep, hd'.gor, hch] at this

/-- C71 violated: a user that reads the first two of four bytes and closes the reader is ended by `log.Fatal`, although the file is good. -/
theorem C71_violated : ∃ (s : DState), DReachable 10 [1, 2, 3, 4] true s ∧ s.received = [1, 2] ∧ s.rOpen = false ∧ s.fatal = true := by
  refine ⟨_, ⟨_, [.gor true, .write 3, .read 2, .close, .write 1, .gor true], rfl, rfl⟩, ?_, ?_, ?_⟩ <;> decide

-- a complete reading in pieces; a truncated file
example : ((newReader true true [1, 2, 3, 4] true).bind (fun s => s.exec 10 [.gor true, .write 3, .read 2, .write 1, .finish, .read 1, .gor true, .gor true, .read 1,
    .read 0, .close])).map (fun s => (s.received, s.eof, s.rOpen, s.wOpen, s.fatal)) = some ([1, 2, 3, 4], true, false, false, false) := by decide
example : ((newReader true true [1, 2] false).bind (fun s => s.exec 10 [.gor true, .write 2, .read 2, .finish, .gor true])).map
    (fun s => (s.received, s.eof, s.fatal)) = some ([1, 2], false, true) := by decide

end TcpInfo
