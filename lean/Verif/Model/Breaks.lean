import Verif.Model.Interp

/-!
# The search for breaks in a block of files

Models `_find_breaks` (core.py:1421-1488) and `_assign_times` (core.py:1245-1270). The breaks found are only used for
debugging output; but if the search raises, the block is given up.
-/

namespace Gemlog

/-- Python slice `l[a:b]` with possibly negative limits. -/
def pySlice {α : Type} (l : List α) (a b : Int) : List α :=
  let n : Int := l.length
  let lim (i : Int) : Nat := (if i < 0 then max (i + n) 0 else min i n).toNat
  (l.take (lim b)).drop (lim a)

/-- `np.max`; `none` raises ValueError (empty array). -/
def maxOf : List Rat → Option Rat
  | [] => none
  | x :: l => some (l.foldl max x)

/-- `np.min`. -/
def minOf : List Rat → Option Rat
  | [] => none
  | x :: l => some (l.foldl min x)

/-- core.py:1428-1432: is a fix suspect? `prev` and `next` are the neighbouring times. Comparisons with NaN are False. -/
def badTag (now prev next : Rat) (f : Fix) : Bool :=
  decide (f.t > now) || (match f.year with | some y => decide (y < 2015) | none => false) ||
    (decide (|f.t - prev| > 86400) && decide (|f.t - next| > 86400)) || decide (f.lat = some 0) || decide (f.lon = some 0)

/-- core.py:1425-1433: the fixes that are not suspect. Simplification: the `try` never catches anything here. -/
def goodFixes (now : Rat) (gps : List Fix) : List Fix :=
  let t := gps.map fun f => f.t
  let prev := t.take 1 ++ t
  let next := t.tail ++ t.drop (t.length - 1)
  ((gps.zip (prev.zip next)).filter fun p => !badTag now p.2.1 p.2.2 p.1).map Prod.fst

/-- core.py:1440: `np.where((dmD > 25) | (dmD < 0))[0]`. -/
def dataBreakIdx (mD : List Rat) : List Nat :=
  (List.range (mD.length - 1)).filter fun i =>
    decide (mD.getD (i + 1) 0 - mD.getD i 0 > 25) || decide (mD.getD (i + 1) 0 - mD.getD i 0 < 0)

/-- core.py:1441-1444: a break at the very start: forget the first sample. -/
def trimFirst (s : List Rat × List Nat) : List Rat × List Nat :=
  if 0 ∈ s.2 then (s.1.drop 1, (s.2.filter fun i => i ≠ 0).map fun i => i - 1) else s

/-- core.py:1445-1448: a break at the very end: forget the last sample. (`len(dmD)` is one less than `len(mD)`.) -/
def trimLast (s : List Rat × List Nat) : List Rat × List Nat :=
  if 2 ≤ s.1.length ∧ s.1.length - 2 ∈ s.2 then (s.1.dropLast, s.2.filter fun i => i ≠ s.1.dropLast.length - 1) else s

/-- core.py:1450-1452: end of the gap (start of the data after it) and start of it, for each break; `none`: raises. -/
def gapLimits (mD : List Rat) : List Nat → Option (List (Rat × Rat))
  | [] => some []
  | i :: is =>
    let w := pySlice mD ((i : Int) - 1) (i + 2)
    match maxOf w, minOf w, gapLimits mD is with
    | some a, some b, some l => some ((a, b) :: l)
    | _, _, _ => none

/-- core.py:1455-1458: is the step between two fixes (time, millis) a break? Division by zero gives NaN or infinity, which
is a break in both cases. -/
def gpsBreak (a b : Rat × Rat) : Bool :=
  let dt := b.1 - a.1
  let r := (b.2 - a.2) / dt * (1024 / 1000)
  decide (dt = 0) || (decide (dt > 50) && (decide (r > 10001 / 10) || decide (r < 9999 / 10))) ||
    (decide (dt ≤ 50) && (decide (r > 1002) || decide (r < 998)))

/-- core.py:1456-1459: the indices of these steps. -/
def gpsBreakIdx (g : List (Rat × Rat)) : List Nat :=
  (List.range (g.length - 1)).filter fun i => gpsBreak (g.getD i (0, 0)) (g.getD (i + 1) (0, 0))

/-- numpy broadcasting of two arrays; `none`: ValueError. -/
def broadcast (a b : List Rat) : Option (List (Rat × Rat)) :=
  if a.length = b.length then some (a.zip b)
  else match a, b with
    | [x], b => some (b.map fun y => (x, y))
    | a, [y] => some (a.map fun x => (x, y))
    | _, _ => none

/-- Set the elements with the given indices; `none`: IndexError. -/
def setAll (l : List Rat) (w : List Nat) (v : Rat) : Option (List Rat) :=
  if w.all fun i => decide (i < l.length) then some (l.mapIdx fun i x => if i ∈ w then v else x) else none

/-- The variables of the loop: `starts`, `ends`, `min_possible_start`. -/
structure BreakState where
  starts : List Rat
  ends : List Rat
  minStart : Rat
  deriving DecidableEq, Repr

/-- core.py:1476, 1485: among the fixes `g` (time, millis), the millis of the last one with the smallest (`better a b` iff
`a < b`) or largest time. -/
def extremeFix (better : Rat → Rat → Bool) : List (Rat × Rat) → Option (Rat × Rat)
  | [] => none
  | a :: l =>
    match extremeFix better l with
    | none => some a
    | some b => if better a.1 b.1 then some a else some b

/-- core.py:1461-1485: one GPS break; `none`: raises. -/
def gpsBreakStep (g : List (Rat × Rat)) (s : BreakState) (i : Nat) : Option BreakState :=
  let gi := g.getD i (0, 0)
  let gj := g.getD (i + 1) (0, 0)
  match broadcast s.starts s.ends with
  | none => none
  | some pairs =>
    let w := (List.range pairs.length).filter fun k =>
      decide (gi.2 ≤ (pairs.getD k (0, 0)).1) && decide (gj.2 ≥ (pairs.getD k (0, 0)).2)
    if w ≠ [] then
      let around := (pySlice g ((i : Int) - 1) (i + 2)).map Prod.snd
      match maxOf around, minOf around with
      | some hi, some lo =>
        match maxOf (w.map (fun k => s.starts.getD k 0) ++ [hi]), maxOf (w.map (fun k => s.ends.getD k 0) ++ [lo]) with
        | some a, some b =>
          match setAll s.starts w a, setAll s.ends w b with
          | some st, some en => some { s with starts := st, ends := en }
          | _, _ => none
        | _, _ => none
      | _, _ => none
    else
      let starts := match extremeFix (fun x y => decide (x < y)) (g.filter fun f => decide (f.1 > gi.1)) with
        | some f => s.starts ++ [f.2]
        | none => s.starts
      match extremeFix (fun x y => decide (x > y)) (g.filter fun f => decide (f.1 < gj.1)) with
      | some f => some { s with starts := starts, ends := s.ends ++ [f.2] }
      | none => some { s with starts := starts, minStart := gj.1 }

/-- The loop over the GPS breaks. -/
def gpsBreakLoop (g : List (Rat × Rat)) : List Nat → BreakState → Option BreakState
  | [], s => some s
  | i :: is, s =>
    match gpsBreakStep g s i with
    | none => none
    | some s => gpsBreakLoop g is s

/-- core.py:1421-1488 `_find_breaks(L)` for the samples' counts and the fixes; `none`: it raises. -/
def findBreaks (now : Rat) (mD : List Rat) (gps : List Fix) : Option (List Rat × List Rat) :=
  if gps = [] then none                                                     -- 1426: t[0]
  else
    let s := trimLast (trimFirst (mD, dataBreakIdx mD))
    match gapLimits s.1 s.2, minOf s.1, maxOf s.1 with
    | some l, some lo, some hi =>
      let g := (goodFixes now gps).map fun f => (f.t, f.msPPS)
      match gpsBreakLoop g (gpsBreakIdx g) ⟨l.map Prod.fst, l.map Prod.snd, lo⟩ with
      | none => none
      | some r => some (r.minStart :: r.starts, r.ends ++ [hi])
    | _, _, _ => none

end Gemlog
