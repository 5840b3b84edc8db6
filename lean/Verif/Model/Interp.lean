import Verif.Model.Segments

/-!
# Resampling to 100 samples per second

Models `_interp_time` (core.py:1275-1321) with its default arguments, the only ones used (core.py:1268,
1546). Times are exact seconds. The spline (`scipy.interpolate.CubicSpline`) is a parameter: it maps the
points to a function, or fails (`none`).
-/

namespace Gemlog

/-- A spline constructor; `none` if it raises. The value of a sample may be NaN (`none`). -/
abbrev Spliner := List (Rat × Option Rat) → Option (Rat → Rat)

/-- A resampled trace: start time in hundredths of a second and the samples, spaced by 10 ms. -/
structure Trace where
  start : Int
  data : List Int
  deriving DecidableEq, Repr

/-- core.py:1280-1282: samples with a time. -/
def timedSamples (data : List (Rat × Option Rat × Option Rat)) : List (Rat × Option Rat) :=
  data.filterMap fun p => p.2.2.map fun (t : Rat) => (t, p.2.1)

/-- core.py:1287 with `min_step = 0`, `max_step = 0.025`: is the step a break? -/
def isBreak (p : Rat × Rat) : Bool := decide (p.2 - p.1 > 25 / 1000) || decide (p.2 - p.1 < 0)

/-- core.py:1287-1288: the steps (times before and after) at which the record is split. -/
def breakPairs (t1 t2 : Rat) (t : List Rat) : List (Rat × Rat) :=
  ((t.zip t.tail).filter isBreak).filter fun p => decide (p.1 > t1) && decide (p.2 < t2)

/-- core.py:1289-1293: start and end times of the chunks. -/
def chunkLimits (t1 t2 : Rat) (t : List Rat) : List (Rat × Rat) :=
  let breaks := breakPairs t1 t2 t
  ((t1 :: breaks.map Prod.snd).zip (breaks.map Prod.fst ++ [t2])).filter fun p => p.1 != p.2

/-- core.py:1298: the samples used for a chunk (`eps = 0.001`). -/
def chunkPoints (samples : List (Rat × Option Rat)) (s e : Rat) : List (Rat × Option Rat) :=
  samples.filter fun p => decide (p.1 ≥ s - 1 / 100 - 1 / 1000) && decide (p.1 ≤ e + 1 / 100 - 1 / 1000)

/-- core.py:1308: the output times of a chunk, in hundredths of a second. `np.arange` of a negative number is
empty. -/
def chunkTimes (s e : Rat) : List Int :=
  (List.range (pyTrunc ((e - s) / (1 / 100))).toNat).map fun (k : Nat) => npRound ((s + (k : Rat) * (1 / 100)) * 100)

/-- core.py:1297-1314: one chunk. `none`: no trace. IndexError of `t_interp[0]` is `other`. Simplification: the
conversion to `int32` does not overflow. -/
def interpChunk (spline : Spliner) (samples : List (Rat × Option Rat)) (p : Rat × Rat) : Except Exc (Option Trace) :=
  match spline (chunkPoints samples p.1 p.2) with
  | none => .ok none
  | some f =>
    let times := chunkTimes p.1 p.2
    let values := times.map fun (k : Int) => npRound (f ((k : Rat) / 100))
    match times with
    | [] => .error .other
    | t0 :: _ => .ok (some ⟨t0, values⟩)

/-- core.py:1296-1315: the loop over the chunks. -/
def interpChunks (spline : Spliner) (samples : List (Rat × Option Rat)) : List (Rat × Rat) → Except Exc (List Trace)
  | [] => .ok []
  | p :: ps =>
    match interpChunk spline samples p with
    | .error x => .error x
    | .ok none => interpChunks spline samples ps
    | .ok (some tr) =>
      match interpChunks spline samples ps with
      | .error x => .error x
      | .ok trs => .ok (tr :: trs)

/-- core.py:1275-1315 `_interp_time(data)`. Without any time, `t_in[...][0]` raises IndexError. -/
def interpTime (spline : Spliner) (data : List (Rat × Option Rat × Option Rat)) : Except Exc (List Trace) :=
  let samples := timedSamples data
  let t := samples.map Prod.fst
  match t.head?, t.getLast? with
  | some t1, some t2 => interpChunks spline samples (chunkLimits t1 t2 t)
  | _, _ => .error .other

end Gemlog
