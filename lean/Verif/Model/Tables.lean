import Verif.Model.ReadGem

/-!
# The metadata and GPS tables written by `convert`

Models core.py:184-335 once more, with the rows written to the metadata file and the GPS file and the list of problems returned.
The loops are those of `Model/Convert.lean`. Not modelled: the text of the rows (`DataFrame.to_csv`), the column names in the first line,
the names of the files (see `Model/Names.lean`).
-/

namespace Gemlog

/-- The rows in the metadata file and in the GPS file, and `problems`. -/
structure Tables where
  metadata : List (Rat × List (Option Rat) × Option Rat)
  gps : List Fix
  problems : List (Entry × Exc)

/-- The arguments of a conversion, with `read_gem` for a block of numbers. -/
structure TableJob where
  nums : List Int
  blockdays : Rat
  L : Int
  t2 : Int
  readAll : List Int → Except Exc GemData

/-- The same without the tables. -/
def TableJob.job (j : TableJob) : Job := ⟨j.nums, j.blockdays, j.L, j.t2, fun block => (j.readAll block).map GemData.stream⟩

/-- core.py:186-203: read blocks until one has data. Returns `n1`, `L`, and the blocks read. -/
def firstBlockT (j : TableJob) : Nat → Rat → List (List Int) → Run (Rat × GemData × List (List Int))
  | 0, _, _ => .running
  | fuel + 1, n1, reads =>
    if n1 ≤ j.job.last then
      let n2 := n1 + 12 * j.blockdays
      match j.readAll (j.job.block n1) with
      | .error x => if x.skipsBlock then firstBlockT j fuel n2 (reads ++ [j.job.block n1]) else .raised x []
      | .ok g =>
        if g.stream = [] then firstBlockT j fuel n2 (reads ++ [j.job.block n1])
        else .done (n2, g, reads ++ [j.job.block n1])
    else .raised .missingRaw []

/-- core.py:278-311: read blocks while the data end before `tt2`; append all rows of a block with data. (`wgps` of line 307 is used only
for its length.) -/
def readBlocksT (j : TableJob) (tt2 : Int) (out : List Trace) : Nat → Rat → List Trace → List (List Int) → Tables →
    Run (Rat × List Trace × List (List Int) × Tables)
  | 0, _, _, _, _ => .running
  | fuel + 1, n1, p, reads, tb =>
    match p.getLast? with
    | none => .raised .other out
    | some tr =>
      if 10000 * tr.stop < tt2 ∧ n1 ≤ j.job.last then
        let n2 := n1 + 12 * j.blockdays
        match j.readAll (j.job.block n1) with
        | .error x => if x.skipsBlock then readBlocksT j tt2 out fuel n2 p (reads ++ [j.job.block n1]) tb else .raised x out
        | .ok g =>
          if g.stream = [] then readBlocksT j tt2 out fuel n2 p (reads ++ [j.job.block n1]) tb
          else
            let gps := if g.gps.length > 0 then tb.gps ++ g.gps else tb.gps                                   -- 309-310
            readBlocksT j tt2 out fuel n2 (mergeGaps (p ++ g.stream)) (reads ++ [j.job.block n1])
              ⟨tb.metadata ++ g.metadata, gps, tb.problems ++ g.problems⟩                                       -- 306, 311
      else .done (n1, p, reads, tb)

/-- core.py:270-325. -/
def mainLoopT (j : TableJob) : Nat → CState → Tables → Run (CState × Tables)
  | 0, _, _ => .running
  | fuel + 1, s, tb =>
    if s.n1 > j.job.last then .done (s, tb)
    else if s.t1 > j.t2 then .done (s, tb)
    else
      let day := j.job.day
      let tt2 := min j.t2 (truncTime s.t1 day + day)
      (readBlocksT j tt2 s.w.out fuel s.n1 s.w.p s.reads tb).bind fun r =>
      (writeFull j.L j.t2 fuel { s.w with p := r.2.1 }).bind fun w =>
      match trimStream w.h j.t2 w.p with
      | .error x => .raised x w.out
      | .ok p => mainLoopT j fuel ⟨r.1, truncTime (tt2 + day + 1000000) day, { w with p := p }, r.2.2.1⟩ r.2.2.2

/-- core.py:184-335. The tables begin with the rows of the first block with data: all of its status rows, and its fixes later than a second
before `t1` (core.py:257-265). -/
def convertT (j : TableJob) (t1 : Option Int) (fuel : Nat) : Run (CState × Tables) :=
  (firstBlockT j fuel (j.nums.head?.getD 0 : Int) []).bind fun r =>
  match startTime t1 r.2.1.stream with
  | .error x => .raised x []
  | .ok (p, t1) =>
    let h := match p with
      | [] => t1
      | tr :: _ => max t1 (10000 * tr.start)
    let tb : Tables := ⟨r.2.1.metadata, r.2.1.gps.filter fun f => decide (1000000 * f.t > (t1 : Rat) - 1000000), r.2.1.problems⟩
    (mainLoopT j fuel ⟨r.1, t1, ⟨p, h, []⟩, r.2.2⟩ tb).bind fun s =>
    (writeRest j.L j.t2 fuel s.1.w).bind fun w => .done ({ s.1 with w := w }, s.2)

/-- The job of `convert` for a raw directory (core.py:191-194, 280). -/
def tableJobOf (env : Env) (dir : List Entry) (SN : List Nat) (nums : List Int) (blockdays : Rat) (L t2 : Int) : TableJob :=
  ⟨nums, blockdays, L, t2, fun block => readGem env dir SN block true⟩

end Gemlog
