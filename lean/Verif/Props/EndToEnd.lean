import Verif.Props.Archive
import Verif.Props.Marshal
/-!
# Property C62: what the saver writes, the loader reads
-/

namespace TcpInfo
open Spec

/-- The marshallers' `json.Marshal` whose error is ignored: nothing is written then (saver/saver.go:76-77, 151-155). -/
def jsonEnv (zone : Int → Int) (anon : Anonymizer) : MEnv := { anon := anon, json := fun r => (marshalRecord zone r).getD [] }

/-- C62. After a complete run, under every schedule, every output file (decompressed) is loaded without error, as the header record followed by the
records queued for the file, in order, each with its addresses anonymized; nothing else. Assumed: each of these is marshalled to less than 64 KiB (see
`C22_marshals` for when it is marshalled, `C23_violated_long` for what happens otherwise) and the file's number is an `int`. -/
theorem C62_files_load (zone : Int → Int) (hz : ∀ t, (zone t).natAbs < 24 * 60) (anon : Anonymizer) (env : Env) (bs : List MessageBlock) (s : Saver)
    (h : runSaver env bs = some s) (hm : 0 < env.marshallers) (hm' : env.marshallers < 2 ^ 64) (cs : List Choice) (st : MState)
    (hr : runProcess (jsonEnv zone anon) env s cs = some st) (hw : st.wg = 0) (w : Nat) :
    (fileEvents w s.trace = [] ∧ st.files w = [])
    ∨ ∃ n hd, ∃ ws : List ArchivalRecord, ∃ q, fileEvents w s.trace = .opened n hd :: ws.map (.wrote q) ++ [.closed q]
      ∧ ((∀ r ∈ hd :: ws.filterMap (anonymized anon.f), (∃ b, marshalRecord zone r = some b ∧ b.length < 65536)
            ∧ ∀ m, r.metadata = some m → -2 ^ 63 ≤ m.sequence ∧ m.sequence < 2 ^ 63) →
          ∃ out, loadAllArchivalRecords ⟨contents (st.files w), .eof⟩ = (out, none)
            ∧ out.length = (hd :: ws.filterMap (anonymized anon.f)).length
            ∧ ∀ (i : Nat) (a b : ArchivalRecord), (hd :: ws.filterMap (anonymized anon.f))[i]? = some a → out[i]? = some b → SameContents a b) := by
  rcases C39_contents (jsonEnv zone anon) env bs s h hm hm' cs st hr hw w with he | ⟨n, hd, ws, q, he, hc⟩
  · exact Or.inl he
  · refine Or.inr ⟨n, hd, ws, q, he, fun hfit => ?_⟩
    have hj : ∀ rs : List ArchivalRecord, (∀ r ∈ rs, ∃ b, marshalRecord zone r = some b ∧ b.length < 65536) →
        rs.map (marshalRecord zone) = (rs.map (jsonEnv zone anon).json).map some ∧ ∀ l ∈ rs.map (jsonEnv zone anon).json, l.length < 65536 := by
      intro rs hrs
      constructor
      · rw [List.map_map]
        refine List.map_congr_left (fun r hr => ?_)
        obtain ⟨b, hb, _⟩ := hrs r hr
        simp [jsonEnv, hb]
      · intro l hl
        obtain ⟨r, hr, rfl⟩ := List.mem_map.mp hl
        obtain ⟨b, hb, hlen⟩ := hrs r hr
        simpa [jsonEnv, hb] using hlen
    have hx := hj _ (fun r hr => (hfit r hr).1)
    have hc' : contents (st.files w) = linesText ((hd :: ws.filterMap (anonymized anon.f)).map (jsonEnv zone anon).json) := by
      rw [hc]
      unfold fileText linesText
      simp only [List.map_cons, List.flatMap_cons, lineOf, List.flatMap_map]
      rfl
    rw [hc']
    exact C22_roundtrip zone hz _ _ hx.1 (fun r hr => (hfit r hr).2) hx.2

-- a run with two connections, saved and loaded: the second connection's file has its header and two records, all of them are marshalled to short lines
def exJsonEnv : MEnv := jsonEnv (fun _ => 0) exMEnv.anon
def exRun : Option MState := (runSaver exEnv exBlocks).bind (fun s =>
  runProcess exJsonEnv exEnv s (execSkip exJsonEnv (exSchedule (program s)) (mInit (program s) 3)).1)
example : exRun.map (fun st => (st.wg, (loadAllArchivalRecords ⟨contents (st.files 1), .eof⟩).2)) = some (0, none) := by decide +kernel
example : exRun.map (fun st => (loadAllArchivalRecords ⟨contents (st.files 1), .eof⟩).1.map
      (fun r => (r.metadata.map (fun m => (m.uuid, m.sequence)), r.raw.length, r.attrs.length))) =
    some [(some ("2", 0), 0, 0), (none, 72, 3), (none, 72, 3)] := by decide +kernel
example : exRun.map (fun st => (splitLines (contents (st.files 1))).map List.length) = some [108, 484, 484] := by decide +kernel

end TcpInfo
