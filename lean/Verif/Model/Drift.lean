import Verif.Model.ReadSingle
import Mathlib.Data.List.Sort

/-!
# Clock regression

Models `_calculate_drift` (core.py:1097-1173), `_detect_step` (core.py:1176-1181),
`_robust_regress` (core.py:1183-1208) and `_apply_fit` (core.py:1233-1234).

The polynomial fitter (`np.polynomial.polynomial.polyfit` with warnings turned into exceptions) is a
parameter: it maps the degree and the points to the coefficients, constant term first, or fails.
-/

namespace Gemlog

/-- A polynomial fitter; `none` if it raises. -/
abbrev Fitter := Nat → List (Rat × Rat) → Option (List Rat)

/-- `np.polynomial.Polynomial(reg)(x)`: coefficients with the constant term first. -/
def polyEval : List Rat → Rat → Rat
  | [], _ => 0
  | c :: cs, x => c + x * polyEval cs x

/-- `np.mean`, for a non-empty list. -/
def meanRat (l : List Rat) : Rat := l.sum / l.length

/-- `np.std(resid)**2`: numpy passes `ddof=0`, so this is the population variance. -/
def varRat (l : List Rat) : Rat := meanRat (l.map fun r => (r - meanRat l) ^ 2)

/-- `np.max(np.abs(resid))`; `none`: ValueError on an empty array. -/
def maxAbs : List Rat → Option Rat
  | [] => none
  | r :: l => some (l.foldl (fun m s => max m |s|) |r|)

/-- What `_robust_regress` returns: coefficients (constant term first; the code reverses them), count,
greatest absolute residual, residuals and the points used. -/
structure Regression where
  coefs : List Rat
  num : Nat
  maxResid : Rat
  resid : List Rat
  pts : List (Rat × Rat)
  deriving DecidableEq, Repr

/-- Failure of the regression: an exception, or (only in the model) the recursion bound exhausted, which
never happens (`C21_terminates`). -/
inductive RegErr
  | raised
  | outOfFuel
  deriving DecidableEq, Repr

/-- core.py:1197: `np.abs(resid) > z*np.std(resid)`, compared through squares (both sides are ≥ 0). -/
def isStdOutlier (z var r : Rat) : Bool := r ^ 2 > z ^ 2 * var

/-- core.py:1199: `np.abs(resid) > MAD`; `none` is infinity. -/
def isMadOutlier (MAD : Option Rat) (r : Rat) : Bool :=
  match MAD with
  | none => false
  | some m => |r| > m

/-- core.py:1197-1199: the outlier mask. -/
def outlierMask (z : Rat) (MAD : Option Rat) (resid : List Rat) : List Bool :=
  let outliers := resid.map (isStdOutlier z (varRat resid))
  if outliers.any id then outliers else resid.map (isMadOutlier MAD)

/-- `x[~outliers], y[~outliers]`. -/
def keepInliers (pts : List (Rat × Rat)) (mask : List Bool) : List (Rat × Rat) :=
  ((pts.zip mask).filter fun p => !p.2).map Prod.fst

/-- core.py:1183-1208 `_robust_regress(x, y, degree, MAD, z)` with unlimited `recursive_depth`; the first
argument bounds the recursion in the model. -/
def robustGo (fit : Fitter) (degree : Nat) (MAD : Option Rat) (z : Rat) :
    Nat → List (Rat × Rat) → Except RegErr Regression
  | 0, _ => .error .outOfFuel
  | fuel + 1, pts =>
    match fit degree pts with
    | none => .error .raised
    | some reg =>
      let resid := pts.map fun p => p.2 - polyEval reg p.1
      let mask := outlierMask z MAD resid
      if mask.any id then robustGo fit degree MAD z fuel (keepInliers pts mask)
      else
        match maxAbs resid with
        | none => .error .raised
        | some m => .ok ⟨reg, pts.length, m, resid, pts⟩

/-- core.py:1183-1208 `_robust_regress` with its default `z = 4`. -/
def robustRegress (fit : Fitter) (degree : Nat) (MAD : Option Rat) (pts : List (Rat × Rat)) :
    Except RegErr Regression :=
  robustGo fit degree MAD 4 (pts.length + 1) pts

/-- core.py:1178: `any(np.abs(np.diff(resid)) > 0.25)`. -/
def anyJump : List Rat → Bool
  | a :: b :: l => decide (|b - a| > 1 / 4) || anyJump (b :: l)
  | _ => false

/-- core.py:1176-1181 `_detect_step`. -/
def detectStep (fit : Fitter) (pts : List (Rat × Rat)) : Except RegErr Bool :=
  match robustRegress fit 1 none pts with
  | .error x => .error x
  | .ok r => .ok (anyJump r.resid)

/-- `a / b < c` for floats, with division by zero giving infinities or NaN. -/
def ratioLt (a b c : Rat) : Bool :=
  if b = 0 then decide (a < 0) else decide (a / b < c)

/-- `a / b > c` for floats, with division by zero giving infinities or NaN. -/
def ratioGt (a b c : Rat) : Bool :=
  if b = 0 then decide (0 < a) else decide (a / b > c)

/-- First and last entry of a list. -/
def firstLast (l : List Rat) : Rat × Rat := (l.head?.getD 0, l.getLast?.getD 0)

/-- Insertion sort, for the median. -/
def sortRat (l : List Rat) : List Rat := l.insertionSort (· ≤ ·)

/-- `np.median` of a non-empty list. -/
def medianRat (v : List Rat) : Rat :=
  let s := sortRat v
  if s.length % 2 = 1 then s.getD (s.length / 2) 0
  else (s.getD (s.length / 2 - 1) 0 + s.getD (s.length / 2) 0) / 2

/-- `np.median` of a non-empty column; NaN if any entry is NaN. -/
def medianCol (l : List (Option Rat)) : Option Rat :=
  match l.mapM id with
  | none => none
  | some v => some (medianRat v)

/-- The nominal clock rate: seconds per millisecond count (core.py:1105). -/
def defaultDeg1 : Rat := 1024 / 1000000

/-- core.py:1137-1149: the nominal clock, with its greatest residual and the number of fixes. -/
def zeroDrift (gps : List Fix) : List Rat × Option Rat × Nat :=
  match gps with
  | [] => ([0, defaultDeg1, 0, 0], none, 0)
  | gps =>
    let starts := gps.map fun f => f.t - defaultDeg1 * f.msPPS
    let deg0 := meanRat starts
    ([deg0, defaultDeg1, 0, 0], maxAbs (starts.map fun s => s - deg0), starts.length)

/-- core.py:1122-1135: the regression with its acceptance test; `none`: unusable (an exception inside the
`try`). -/
def tryRegression (fit : Fitter) (span : Rat) (pts : List (Rat × Rat)) : Option Regression :=
  match robustRegress fit 3 (some (1 / 100)) pts with
  | .error _ => none
  | .ok r =>
    let x := firstLast (r.pts.map Prod.fst)
    if ratioGt (1024 / 1000000 * span) (x.2 - x.1) 2 = true ∨ r.num < 10 ∨ r.maxResid > 1 / 100 then none
    else some r

/-- core.py:1097-1173 `_calculate_drift(L, fn, require_gps)`. Any exception of the regression inside
`_detect_step` is `other`. -/
def calculateDrift (fit : Fitter) (L : FileData) (requireGps : Bool) : Except Exc HeaderInfo :=
  let ms := firstLast (L.data.map Prod.fst)
  let span := ms.2 - ms.1
  let t := firstLast (L.gps.map Fix.t)
  let pts := L.gps.map fun f => (f.msPPS, f.t)
  let anyGps : Bool := L.gps ≠ []                                                       -- 1106-1111
  let sufficient : Bool := anyGps && ratioLt (1024 / 1000000 * span) (t.2 - t.1 + 1 / 1000000000) 2
  let finish (coefs : List Rat) (maxResid : Option Rat) (num : Nat) : HeaderInfo :=     -- 1151-1173
    ⟨medianCol (L.gps.map fun f => f.lat), medianCol (L.gps.map fun f => f.lon), ms.1, ms.2,
      coefs.getD 3 0, coefs.getD 2 0, coefs.getD 1 0, coefs.getD 0 0, L.gps.length, maxResid, num⟩
  let finish (coefs : List Rat) (maxResid : Option Rat) (num : Nat) : HeaderInfo :=
    if anyGps then finish coefs maxResid num
    else { finish coefs maxResid num with lat := none, lon := none }
  let zero := zeroDrift L.gps
  if requireGps && !anyGps then .error .noGPS                                           -- 1113-1114
  else if requireGps && !sufficient then .error .inadequateGPS                          -- 1115-1116
  else
    let step : Except Exc Unit :=                                                       -- 1117-1119
      if requireGps then
        match detectStep fit pts with
        | .error _ => .error .other
        | .ok true => .error .discontinuousGPS
        | .ok false => .ok ()
      else .ok ()
    match step with
    | .error x => .error x
    | .ok _ =>
      if sufficient then
        match tryRegression fit span pts with
        | some r => .ok (finish r.coefs (some r.maxResid) r.num)
        | none =>
          if requireGps then .error .inadequateGPS
          else .ok (finish zero.1 zero.2.1 zero.2.2)
      else .ok (finish zero.1 zero.2.1 zero.2.2)

/-- core.py:1233-1234 `_apply_fit`. -/
def applyFit (x : Rat) (h : HeaderInfo) : Rat :=
  h.deg0 + h.deg1 * x + h.deg2 * x ^ 2 + h.deg3 * x ^ 3

end Gemlog
