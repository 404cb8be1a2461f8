import Verif.Props.Recover
import Verif.Props.Process
/-!
# C86, read from the files: the whole way from the polls to the loaded archives
-/

namespace TcpInfo
open Spec

/-- The output file `w` of the process, which has been opened, once its writer is closed and its compressor has not failed, has been read back (by a decompressor that reached the
end) and loaded without error as `out`. -/
def Loaded (p : Proc) (w : Nat) (out : List ArchivalRecord) : Prop :=
  p.m.files w ≠ [] ∧ ∃ cap z data cap' d, Zstd.Reachable cap (zCalls (p.m.files w)) z ∧ .closed true ∈ z.rets ∧ z.child ≠ .exited false ∧ z.disk = some data
    ∧ Zstd.DReachable cap' data true d ∧ d.eof = true ∧ loadAllArchivalRecords ⟨d.received, .eof⟩ = (out, none)

/-- In one poll, a connection is reported as an IPv4 or as an IPv6 connection, not as both: the kernel answers a request with the sockets of the family that
was asked for. -/
def OneFamily (ex : Option ExcludeConfig) (b : MessageBlock) : Prop :=
  ∀ r ∈ b.v4Messages.filterMap (reportOf ex b.v4Time), ∀ r' ∈ b.v6Messages.filterMap (reportOf ex b.v6Time), ck r ≠ ck r'

theorem cookie_congr {a b : Bytes} (h : ∀ i, 44 ≤ i → i < 52 → a[i]? = b[i]?) : cookie a = cookie b := by
  unfold cookie
  have : (a.drop 44).take 8 = (b.drop 44).take 8 := by
    apply List.ext_getElem?
    intro i
    rw [List.getElem?_take, List.getElem?_take]
    split
    · rw [List.getElem?_drop, List.getElem?_drop]; exact h _ (by omega) (by omega)
    · rfl
  rw [this]

/-- What an archived record shows of the one that was queued. -/
theorem archived_same {anon : Anonymizer} {r r' b : ArchivalRecord} (ha : anonymized anon.f r = some r') (hs : SameContents r' b) :
    b.timestamp = r.timestamp ∧ ck b = ck r ∧ stateByte b = stateByte r ∧ ∀ t, attrVal b t = attrVal r t := by
  obtain ⟨raw, raw', w, h1, h2, h3, h4, h5, -, -, h6, h7⟩ := C41_addresses anon r r' ha
  obtain ⟨s1, s2, s3, -⟩ := hs
  have hne : r'.rawIDM ≠ some [] := by
    rw [h2]; intro e; injection e with e; rw [e] at h4; simp at h4; omega
  rw [if_neg hne, h2] at s2
  have hb : ∀ i, (i < 8 ∨ 40 ≤ i) → raw'[i]? = raw[i]? := fun i hi => h6 i (by omega) (by omega)
  refine ⟨by rw [← s1, h7], ?_, ?_, ?_⟩
  · show cookie (b.rawIDM.getD []) = cookie (r.rawIDM.getD [])
    rw [s2, h1]
    exact cookie_congr (fun i hi _ => hb i (Or.inr (by omega)))
  · unfold stateByte Spec.byte
    rw [s2, h1]
    simp only [Option.getD_some, List.getD_eq_getElem?_getD, hb 1 (Or.inl (by omega))]
  · intro t
    have hat : r'.attributes = r.attributes := by rw [h7]
    rw [hat] at s3
    have : ∀ l : List (Option GoSlice), (l.getD t none).map (·.val) = ((l.map attrContents).getD t none) := by
      intro l
      simp only [List.getD_eq_getElem?_getD, List.getElem?_map]
      cases l[t]? <;> rfl
    unfold attrVal
    rw [this, this, s3]

theorem written_file {env : Env} {bs : List MessageBlock} {s : Saver} (h : runSaver env bs = some s) (hm : 0 < env.marshallers) (hm' : env.marshallers < 2 ^ 64)
    {x : ArchivalRecord} (hx : x ∈ written s.trace) : ∃ w, x ∈ fileRecords w s.trace := by
  unfold written at hx
  obtain ⟨⟨t, act⟩, ha, he⟩ := List.mem_filterMap.1 hx
  simp only at he
  split at he
  · rename_i q r wr
    injection he with he; subst he
    have := (C43_tasks env bs s h hm hm' _ ha q _ rfl).1
    obtain ⟨w, hw⟩ := Option.ne_none_iff_exists'.1 this
    simp only at hw
    subst hw
    refine ⟨w, List.mem_filterMap.2 ⟨.wrote q r, List.mem_filterMap.2 ⟨_, ha, by simp [fileEvent]⟩, rfl⟩⟩
  · simp at he

theorem fileRecords_of {w : Nat} {tr : List Stamped} {n : FileName} {hd : ArchivalRecord} {ws : List ArchivalRecord} {q : Nat}
    (h : fileEvents w tr = .opened n hd :: ws.map (.wrote q) ++ [.closed q]) : fileRecords w tr = ws := by
  unfold fileRecords
  rw [h]
  simp only [List.cons_append, List.filterMap_cons, List.filterMap_append, List.filterMap_nil, List.append_nil]
  rw [List.filterMap_map]
  clear h
  induction ws with
  | nil => rfl
  | cons a ws ih => rw [List.filterMap_cons]; exact congrArg _ ih

theorem reports_sorted {ex : Option ExcludeConfig} {bs : List MessageBlock} (h1 : bs.Pairwise Later) (h2 : ∀ b ∈ bs, OneFamily ex b) :
    (bs.flatMap (reports ex)).Pairwise (fun a b => ck a = ck b → a.timestamp ≤ b.timestamp) := by
  induction bs with
  | nil => exact .nil
  | cons b bs ih =>
    rw [List.pairwise_cons] at h1
    rw [List.flatMap_cons, List.pairwise_append]
    refine ⟨?_, ih h1.2 (fun c hc => h2 c (List.mem_cons_of_mem _ hc)), ?_⟩
    · unfold reports
      rw [List.pairwise_append]
      have hc : ∀ t l, (List.filterMap (reportOf ex t) l).Pairwise (fun a b => ck a = ck b → a.timestamp ≤ b.timestamp) := by
        intro t l
        rw [List.pairwise_iff_forall_sublist]
        intro a c hac _
        have ha := hac.subset (List.mem_cons_self ..)
        have hc := hac.subset (List.mem_cons_of_mem _ (List.mem_cons_self ..))
        obtain ⟨_, -, ha⟩ := List.mem_filterMap.1 ha
        obtain ⟨_, -, hc⟩ := List.mem_filterMap.1 hc
        rw [reportOf_time ha, reportOf_time hc]; exact Int.le_refl _
      exact ⟨hc _ _, hc _ _, fun a ha c hcm e => absurd e (h2 b (List.mem_cons_self ..) a ha c hcm)⟩
    · intro a ha c hc _
      obtain ⟨b', hb', hc⟩ := List.mem_flatMap.1 hc
      exact Int.le_of_lt (later_reports (h1.1 b' hb') ha hc)

theorem latestAt_max {k : UInt64} {t : Int} {l : List ArchivalRecord} (hp : l.Pairwise (fun a b => ck a = ck b → a.timestamp ≤ b.timestamp)) {x y : ArchivalRecord}
    (hx : latestAt k t l = some x) (hy : y ∈ l) (hk : ck y = k) (ht : y.timestamp ≤ t) : y.timestamp ≤ x.timestamp := by
  unfold latestAt at hx
  obtain ⟨ys, e⟩ := List.getLast?_eq_some_iff.1 hx
  have hp' := hp.filter (fun x => decide (ck x = k) && decide (x.timestamp ≤ t))
  have hm : y ∈ l.filter (fun x => decide (ck x = k) && decide (x.timestamp ≤ t)) := List.mem_filter.2 ⟨hy, by simp [hk, ht]⟩
  rw [e] at hp' hm
  rcases List.mem_append.1 hm with hm | hm
  · refine (List.pairwise_append.1 hp').2.2 y hm x (by simp) ?_
    have := (List.mem_filter.1 (List.mem_of_getLast? hx)).2
    simp only [Bool.and_eq_true, decide_eq_true_eq] at this
    rw [hk, this.1]
  · rw [List.mem_singleton] at hm; subst hm; exact Int.le_refl _

theorem latestAt_mem {k : UInt64} {t : Int} {l : List ArchivalRecord} {x : ArchivalRecord} (hx : latestAt k t l = some x) :
    x ∈ l ∧ ck x = k ∧ x.timestamp ≤ t := by
  have := List.mem_of_getLast? hx
  rw [List.mem_filter] at this
  simpa using this

/-- C86 (partial as `C86_latest_partial`), for the whole system: `main` has returned after the polls. For every poll and every connection (IPv4 or IPv6) with
a tcp_info reported in it, there are a file and a time such that, in whatever has been loaded from that file, there is a record of the connection with that
time, TCP state and counters as reported; the time is not after the report, and no record of the connection that lies between the two is found in any
loaded file. -/
theorem C86_archive_partial (zone : Int → Int) (hz : ∀ t, (zone t).natAbs < 24 * 60) (anon : Anonymizer) (env : Env) (hf : NoFaults env) (hv : ViewOK env)
    (hm' : env.marshallers < 2 ^ 64) (bs : List MessageBlock) (hi : ShortInput env bs) (hI : ∀ b ∈ bs, AllInfoOK env.exclude b)
    (hk : ∀ b ∈ bs, ∀ r ∈ reports env.exclude b, ck r ≠ 0 ∧ (Spec.byte (r.rawIDM.getD []) 0 = 2 ∨ Spec.byte (r.rawIDM.getD []) 0 = 10)) (ho : bs.Pairwise Later)
    (h1 : ∀ b ∈ bs, OneFamily env.exclude b) (cs : List PChoice) (p : Proc) (hr : runProc (jsonEnv zone anon) env bs cs = some p) (hp : p.pc = .returned)
    (b : MessageBlock) (hb : b ∈ bs) (k : UInt64) (r : ArchivalRecord) (hl : lastFor k (reports env.exclude b) = some r) (v : Bytes) (hvl : attrVal r 2 = some v) :
    ∃ w T, T ≤ r.timestamp
      ∧ (∀ out, Loaded p w out → ∃ y ∈ out, y.timestamp = T ∧ ck y = k ∧ stateByte y = stateByte r
          ∧ ∃ u, attrVal y 2 = some u ∧ ∀ c ∈ earlyCounters, fieldOf tcp_info c u = fieldOf tcp_info c v)
      ∧ ∀ w' out', Loaded p w' out' → ∀ y' ∈ out', ck y' = k → y'.timestamp ≤ r.timestamp → y'.timestamp ≤ T := by
  obtain ⟨s, h, hw⟩ := C74_archive zone hz anon env bs hi hf.marshallers hm' cs p hr hp
  obtain ⟨pre, post, rfl⟩ := List.append_of_mem hb
  obtain ⟨x, u, hx1, hx2, hx3, hx4⟩ := C86_counters_partial env hf hv pre b post hI (fun c hc r hr => (hk c hc r hr).1) ho s h k r hl v hvl
  obtain ⟨m1, m2, m3⟩ := latestAt_mem hx1
  have hsub := runSaver_written_reported env _ s h
  have hsort := (reports_sorted (ex := env.exclude) ho h1).sublist hsub
  have hk0 : k ≠ 0 := by
    have hrm := lastFor_mem hl
    rw [← hrm.2]; exact (hk b hb r hrm.1).1
  -- what a loaded file holds
  have hload : ∀ w out, Loaded p w out → ∃ hd : ArchivalRecord, ck hd ≠ k ∧ out.length = (hd :: (fileRecords w s.trace).filterMap (anonymized anon.f)).length
      ∧ ∀ (i : Nat) (a b : ArchivalRecord), (hd :: (fileRecords w s.trace).filterMap (anonymized anon.f))[i]? = some a → out[i]? = some b → SameContents a b := by
    rintro w out ⟨l0, cap, z, data, cap', d, l1, l2, l3, l4, l5, l6, l7⟩
    rcases hw w with ⟨he, hfl⟩ | ⟨n, hd, ws, q, he, hc⟩
    · exfalso
      exact l0 hfl
    · obtain ⟨data', e1, e2⟩ := hc cap z l1 l2 l3
      rw [l4] at e1; injection e1 with e1; subst e1
      obtain ⟨out', e3, e4, e5⟩ := e2 cap' d l5 l6
      rw [l7] at e3
      have e3 : out = out' := (Prod.mk.inj e3).1
      subst e3
      rw [fileRecords_of he]
      refine ⟨hd, ?_, e4, e5⟩
      obtain ⟨k', n', hd', st, ws', q', he', -, hhd, -⟩ := C37_contents env _ s h w (by rw [he]; simp)
      rw [he] at he'
      have : hd = hd' := by
        have := (List.cons_eq_cons.1 he').1
        simpa using (show FileEvent.opened n hd = FileEvent.opened n' hd' from this) |> fun h => by injection h
      rw [this, hhd]
      intro e
      exact hk0 (e.symm.trans (by show cookie [] = 0; decide))
  obtain ⟨w, hxw⟩ := written_file h hf.marshallers hm' m1
  refine ⟨w, x.timestamp, m3, ?_, ?_⟩
  · intro out hlo
    obtain ⟨hd, -, hlen, hget⟩ := hload w out hlo
    obtain ⟨b', hb', hxb⟩ := List.mem_flatMap.1 (hsub.subset m1)
    have hcx : complete x = true := reports_complete hxb
    have hax : ∃ x', anonymized anon.f x = some x' := by
      unfold anonymized
      simp only
      unfold complete at hcx
      simp only [decide_eq_true_eq] at hcx
      rw [if_neg (by omega)]
      rcases (hk b' hb' x hxb).2 with e | e <;> simp [e]
    obtain ⟨x', hx'⟩ := hax
    have hmem : x' ∈ hd :: (fileRecords w s.trace).filterMap (anonymized anon.f) := List.mem_cons_of_mem _ (List.mem_filterMap.2 ⟨x, hxw, hx'⟩)
    obtain ⟨i, hi'⟩ := List.mem_iff_getElem?.1 hmem
    have hil : i < out.length := by
      rw [hlen]
      obtain ⟨hi'', -⟩ := List.getElem?_eq_some_iff.1 hi'
      exact hi''
    have hsc := hget i x' out[i] hi' (List.getElem?_eq_getElem hil)
    obtain ⟨a1, a2, a3, a4⟩ := archived_same hx' hsc
    exact ⟨out[i], List.getElem_mem hil, a1, a2.trans m2, a3.trans hx3, u, (a4 2).trans hx2, hx4⟩
  · intro w' out' hlo y' hy' hky hty
    obtain ⟨hd, hhd, hlen, hget⟩ := hload w' out' hlo
    obtain ⟨i, hi'⟩ := List.mem_iff_getElem?.1 hy'
    obtain ⟨hil, -⟩ := List.getElem?_eq_some_iff.1 hi'
    rw [hlen] at hil
    have hsc := hget i _ y' (List.getElem?_eq_getElem hil) hi'
    have hm : (hd :: (fileRecords w' s.trace).filterMap (anonymized anon.f))[i] ∈ hd :: (fileRecords w' s.trace).filterMap (anonymized anon.f) := List.getElem_mem hil
    rcases List.mem_cons.1 hm with e | hm
    · exfalso
      rw [e] at hsc
      apply hhd
      rw [← hky]
      show cookie (hd.rawIDM.getD []) = cookie (y'.rawIDM.getD [])
      rw [hsc.2.1]
      split
      · rename_i e; rw [e]; rfl
      · rfl
    · obtain ⟨x0, hx0, hx0'⟩ := List.mem_filterMap.1 hm
      obtain ⟨a1, a2, -, -⟩ := archived_same hx0' hsc
      rw [a1]
      exact latestAt_max hsort hx1 ((fileRecords_sublist w' s.trace).subset hx0) (a2.symm.trans hky) (a1 ▸ hty)

-- the hypotheses hold for a run of three polls with two connections
example : NoFaults exEnv ∧ ShortInput exEnv exBlocks ∧ exBlocks.Pairwise Later ∧ (∀ b ∈ exBlocks, OneFamily none b) ∧ (∀ b ∈ exBlocks, AllInfoOK none b)
    ∧ ∀ b ∈ exBlocks, ∀ r ∈ reports none b, ck r ≠ 0 ∧ (Spec.byte (r.rawIDM.getD []) 0 = 2 ∨ Spec.byte (r.rawIDM.getD []) 0 = 10) :=
  ⟨⟨fun _ => rfl, by decide⟩, exShort, by decide +kernel, by unfold OneFamily; decide +kernel, by unfold AllInfoOK; decide +kernel, by decide +kernel⟩

-- and its second file can be loaded
example : ∃ p out, exProc = some p ∧ p.pc = .returned ∧ Loaded p 1 out := by
  have h1 : exRead.map (fun b => (loadAllArchivalRecords ⟨b, .eof⟩).2) = some none := by decide +kernel
  have h2 : exProc.map (·.pc) = some .returned := by decide +kernel
  have h3 : exProc.map (fun p => decide (p.m.files 1 = [])) = some false := by decide +kernel
  unfold exRead exDisk at h1
  generalize exProc = q at h1 h2 h3 ⊢
  cases q with
  | none => simp at h2
  | some p =>
    simp only [Option.map_some, Option.some.injEq, decide_eq_false_iff_not, Option.bind_some] at h1 h2 h3
    obtain ⟨b, hb, h1⟩ := Option.map_eq_some_iff.1 h1
    obtain ⟨data, hd, hb⟩ := Option.bind_eq_some_iff.1 hb
    obtain ⟨z, hz, hd⟩ := Option.bind_eq_some_iff.1 hd
    obtain ⟨d0, hd0, hb⟩ := Option.bind_eq_some_iff.1 hb
    obtain ⟨d, hd1, hb⟩ := Option.bind_eq_some_iff.1 hb
    split at hd
    · rename_i hc
      split at hb
      · rename_i he
        injection hb with hb
        refine ⟨p, (loadAllArchivalRecords ⟨b, .eof⟩).1, rfl, h2, h3, 65536, z, data, 65536, d, zRun_reachable hz, hc.1, by rw [hc.2]; simp, hd, ⟨d0, _, hd0, hd1⟩, he, ?_⟩
        rw [hb, ← h1]
      · simp at hb
    · simp at hd

end TcpInfo
