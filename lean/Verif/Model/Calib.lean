import Verif.Model.Tables
import Verif.Model.Specs

/-!
# The scale factor in the converted files

Models how `convert` chooses the factor from counts to the unit asked for (core.py:205-212) and puts it into each segment it writes
(core.py:346, 353), and which part of it the file formats keep. Not modelled: the rounding of the factor to 32 bits in SAC files; WAV files, whose samples are
scaled by their largest value (see `Model/Wav.lean`).
-/

namespace Gemlog

/-- core.py:184-335 with the factor `tr.stats.calib` of every written segment; `none` is NaN. `given`: the argument `bitweight`. Simplified: the first
block is read again here to find its header; reading does not change the files. The segments are those of `convertLoops`. -/
def convertScaled (env : Env) (isDir : Bool) (dir : List Entry) (SN : List Nat) (nums : List (Option Int)) (blockdays : Rat) (L : Int)
    (t1 : Option Int) (t2 : Int) (given : Option Rat) (units : List Nat) (fuel : Nat) : Run (List (Trace × Option Rat)) :=
  match convertNums isDir dir SN nums with
  | .error x => .raised x []
  | .ok ns =>
    let j := tableJobOf env dir SN ns blockdays L t2
    (firstBlockT j fuel (j.nums.head?.getD 0 : Int) []).bind fun r =>                       -- 190-203
    let bitweight := convertBitweight given r.2.1.specs units                              -- 205-212
    (convertLoops j.job t1 fuel).bind fun s => .done (s.w.out.map fun tr => (tr, bitweight))  -- 346

/-- What `obspy.read` gives for a file written at core.py:353: the segment, and the factor `calib`. miniSEED has no field for the factor, and `calib` is 1
after reading. SAC has the field `scale`. -/
def readBack (format : List Nat) (p : Trace × Option Rat) : Trace × Option Rat :=
  if lower format = bytes "sac" then p else (p.1, some 1)

end Gemlog
