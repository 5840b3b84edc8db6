import Mathlib.Analysis.SpecialFunctions.Complex.Arg
import Verif.Model.Network
import Verif.Model.Windows

/-!
# From time lags to direction and slowness

Models the names and order of the results of `xcorr_function` (xcorr.py:335-366) and `invert_for_slowness` (xcorr.py:131-176).
The correlation itself (obspy) is not modelled: lags are given. Floats are exact; NaN is `none`.
-/

namespace Gemlog

/-- `f'lag_{ID1}_{ID2}'`: xcorr.py:151, 360. -/
def lagKey (a b : List Nat) : List Nat := bytes "lag_" ++ a ++ bytes "_" ++ b

/-- The cyclic successors: xcorr.py:350, 150 `(i+1) % len`. -/
def cyclicPairs (ids : List (List Nat)) : List (List Nat × List Nat) :=
  ids.zip (ids.drop 1 ++ ids.take 1)

/-- xcorr.py:346-365: the names of the results for a window with the traces `ids` (network.station.location), in order. -/
def xcorrKeys (ids : List (List Nat)) : List (List Nat) :=
  bytes "mean_coef" :: ((cyclicPairs ids).flatMap fun p =>
    [bytes "rms_" ++ p.1, lagKey p.1 p.2, bytes "r_" ++ p.1 ++ bytes "_" ++ p.2]) ++ [bytes "consistency"]

/-- `str.split('_')`. -/
def splitUnderscore : List Nat → List (List Nat)
  | [] => [[]]
  | 95 :: l => [] :: splitUnderscore l
  | c :: l =>
    match splitUnderscore l with
    | [] => [[c]]
    | w :: ws => (c :: w) :: ws

/-- xcorr.py:135-138; `none`: IndexError. -/
def shortIds (keys : List (List Nat)) : Option (List (List Nat)) :=
  (keys.filter (isInfix (bytes "rms"))).mapM fun k => (splitUnderscore k)[1]?

/-- A row of the location table. -/
structure LocRow where
  network : List Nat
  station : List Nat
  location : List Nat
  x : Rat
  y : Rat
  deriving DecidableEq, Repr

/-- xcorr.py:140. -/
def LocRow.id (r : LocRow) : List Nat := r.network ++ bytes "." ++ r.station ++ bytes "." ++ r.location

/-- xcorr.py:141-143, 153-154: the row of a sensor, and its position. Several rows with one identifier (channels of one sensor) have the
same position, so that which of them comes first after sorting does not matter. -/
def findLoc (locs : List LocRow) (id : List Nat) : Option (Rat × Rat) := (locs.find? fun r => r.id = id).map fun r => (r.x, r.y)

/-- xcorr.py:149-157: a row of G; `none`: IndexError. -/
def designRow (locs : List LocRow) (p : List Nat × List Nat) : Option (Rat × Rat) :=
  match findLoc locs p.1, findLoc locs p.2 with
  | some a, some b => some (a.1 - b.1, a.2 - b.2)
  | _, _ => none

/-- xcorr.py:171 `H @ lags` with H of line 163: `(GᵀG)⁻¹ Gᵀ t`, the inverse of the 2 by 2 matrix written out. -/
def solveSlowness (g : List (Rat × Rat)) (lags : List Rat) : Rat × Rat :=
  let a := (g.map fun r => r.1 * r.1).sum
  let b := (g.map fun r => r.1 * r.2).sum
  let c := (g.map fun r => r.2 * r.2).sum
  let p := ((g.zip lags).map fun r => r.1.1 * r.2).sum
  let q := ((g.zip lags).map fun r => r.1.2 * r.2).sum
  let d := a * c - b * b
  ((c * p - b * q) / d, (a * q - b * p) / d)

/-- The determinant of GᵀG. -/
def gramDet (g : List (Rat × Rat)) : Rat :=
  (g.map fun r => r.1 * r.1).sum * (g.map fun r => r.2 * r.2).sum - (g.map fun r => r.1 * r.2).sum * (g.map fun r => r.1 * r.2).sum

/-- A table of lags: columns by name. -/
abbrev LagTable := List (List Nat × List (Option Rat))

/-- xcorr.py:170: the lags of a window; outer `none`: KeyError, inner: one is NaN. -/
def lagsAt (tbl : LagTable) (keys : List (List Nat)) (w : Nat) : Option (Option (List Rat)) :=
  (keys.mapM fun k => (tbl.lookup k).bind fun col => col[w]?).map fun l => l.mapM id

/-- xcorr.py:131-172: the slowness vector of each window, `none` for NaN. Errors: a sensor that is not in the location table, no sensors
(IndexError), a singular matrix (LinAlgError), a missing column (KeyError). With floats a matrix that should be singular may turn out
not to be. -/
def invertForSlowness (tbl : LagTable) (locs : List LocRow) : Except Exc (List (Option (Rat × Rat))) :=
  match shortIds (tbl.map Prod.fst) with
  | none => .error .other
  | some ids =>
    match (cyclicPairs ids).mapM (designRow locs) with
    | none => .error .other
    | some [] => .error .other
    | some g =>
      if gramDet g.dropLast = 0 then .error .other                                   -- 159, 163
      else
        let keys := ((cyclicPairs ids).map fun p => lagKey p.1 p.2).dropLast         -- 170: `lag_keys[:-1]`
        match (List.range (tbl.headD ([], [])).2.length).mapM (lagsAt tbl keys) with
        | none => .error .other
        | some rows => .ok (rows.map fun o => o.map (solveSlowness g.dropLast))

/-- xcorr.py:172: `np.arctan2(-s[0], -s[1]) * 180/np.pi`, in degrees. -/
noncomputable def backazimuthOf (s : Rat × Rat) : ℝ := Complex.arg ⟨-(s.2 : ℝ), -(s.1 : ℝ)⟩ * 180 / Real.pi

/-- xcorr.py:173. -/
noncomputable def slownessOf (s : Rat × Rat) : ℝ := Real.sqrt ((s.1 : ℝ) ^ 2 + (s.2 : ℝ) ^ 2)

end Gemlog
