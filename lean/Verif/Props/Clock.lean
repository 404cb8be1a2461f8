import Verif.Lemmas.Clock
import Verif.Props.SaverFiles
/-!
# C105: setting the machine's clock
-/

namespace TcpInfo
open Spec

/-- C105 (partial: without the exported rates, see `C105_violated`). Two runs of the saver get the same replies of the kernel, at the same moments of the
monotonic clock. Their wall clocks show whatever they like: the polls carry other times, and every reading gives another time and date. Then both do the same
things in the same order at the same moments: they announce and end the same connections, create the same files with the same numbers and metadata, put the
same records into the same files and close them; or both panic. Only the times in the records, metadata lines and events, and the date directories, differ. -/
theorem C105_recorded_partial (env : Env) (hv : ViewUntimed env) (wall : Int → Int) (date : Int → String) (bs bs' : List MessageBlock)
    (hb : bs.map untimedBlock = bs'.map untimedBlock) :
    (runSaver env bs).map (fun s => untimed s.trace) = (runSaver (env.withWall wall date) bs').map (fun s => untimed s.trace) := by
  have h := congrArg (Option.map Saver.trace) (untimed_run env hv wall date bs bs' hb)
  rw [Option.map_map, Option.map_map] at h; exact h

-- non-vacuity: connection 1 is polled five times, its file is rotated each time; in the second run the clock is set back by two days after the first poll
def steadyBlocks : List MessageBlock := (List.range 5).map (fun (i : Nat) => exBlock (1600000000000000000 + 1000000000 * (i : Int)) [exMsg 1 i.toUInt8 i.toUInt8])
def setBackBlocks : List MessageBlock :=
  (List.range 5).map (fun (i : Nat) => exBlock (1600000000000000000 + 1000000000 * (i : Int) - (if i = 0 then 0 else 172800000000000)) [exMsg 1 i.toUInt8 i.toUInt8])
def minutesEnv : Env := exEnvWith (5 * 60000000000) [] 3
def setBackWall (t : Int) : Int := t - (if t < 1600000300000000000 then 0 else 172800000000000)
example : ViewUntimed minutesEnv := fun _ _ => rfl
example : steadyBlocks.map untimedBlock = setBackBlocks.map untimedBlock ∧ steadyBlocks ≠ setBackBlocks := by decide +kernel
example : ((runSaver minutesEnv steadyBlocks).map (fun s => s.trace.filterMap (fun x => match x.act with | .openFile _ n _ => some (n, x.time) | _ => none)))
    = some [(⟨"18518", "1", 0⟩, 1600000300000000000), (⟨"18518", "1", 1⟩, 1600001800000000000), (⟨"18518", "1", 2⟩, 1600003300000000000), (⟨"18518", "1", 3⟩, 1600004800000000000), (⟨"18518", "1", 4⟩, 1600006300000000000)] := by decide +kernel
example : ((runSaver (minutesEnv.withWall setBackWall minutesEnv.date) setBackBlocks).map (fun s => s.trace.filterMap (fun x => match x.act with
    | .openFile _ n _ => some (n, x.time) | _ => none)))
    = some [(⟨"18518", "1", 0⟩, 1600000300000000000), (⟨"18516", "1", 1⟩, 1600001800000000000), (⟨"18516", "1", 2⟩, 1600003300000000000), (⟨"18516", "1", 3⟩, 1600004800000000000), (⟨"18516", "1", 4⟩, 1600006300000000000)] := by decide +kernel

/-- The rates sent that are exported. -/
def ratesSent (tr : List Stamped) : List UInt64 := tr.filterMap (fun x => match x.act with | .observeSent n => some n | _ => none)

/-- C105 violated for the exported rates: one is exported for each second, but none any more after the clock has been set back by two days. -/
theorem C105_violated : steadyBlocks.map untimedBlock = setBackBlocks.map untimedBlock
    ∧ (runSaver minutesEnv steadyBlocks).map (fun s => ratesSent s.trace) = some [0, 1, 1, 1, 1]
    ∧ (runSaver minutesEnv setBackBlocks).map (fun s => ratesSent s.trace) = some [0] := by
  decide +kernel

end TcpInfo
