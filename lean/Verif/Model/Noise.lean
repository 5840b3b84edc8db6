import Verif.Model.Names
import Verif.Model.Readers
import Mathlib.Analysis.SpecialFunctions.Log.Base
import Mathlib.Analysis.SpecialFunctions.Pow.Real

/-!
# Noise spectra

Models `gem_noise`, `ims_noise` and `_noise_spectrum_helper` (gemlog_aux.py:204-341). Real numbers stand for floats, `none` for NaN (and for
the minus infinity that `log10(0)` gives). The curve through the points (`CubicSpline`) and the integral (`quad`) are parameters; what is
modelled of them is where they are NaN.
-/

namespace Gemlog

open Classical

/-- The numerics of scipy: the polynomial pieces through the points, and the integral of a function between two bounds. -/
structure Numerics where
  curve : List (ℝ × ℝ) → ℝ → ℝ
  integral : (ℝ → ℝ) → ℝ → ℝ → ℝ

/-- gemlog_aux.py:316: `CubicSpline(freq_in, power_in, extrapolate = False)`: NaN below the first and above the last point. -/
noncomputable def splineAt (num : Numerics) (table : List (ℝ × ℝ)) (f : ℝ) : Option ℝ :=
  if (∃ p ∈ table, p.1 ≤ f) ∧ (∃ p ∈ table, f ≤ p.1) then some (num.curve table f) else none

/-- The outermost of the 21 places, on an interval from -1 to 1, at which QUADPACK's first rule evaluates the function. -/
noncomputable def outerNode : ℝ := 0.99565716302580808

/-- gemlog_aux.py:319: `quad(spec_function, a, b)[0]`. The sum of the rule has the function's value at the outermost places in it; if one of them is NaN
the result is NaN. Simplification: where both are numbers the result is taken to be a number. -/
noncomputable def quadSpline (num : Numerics) (table : List (ℝ × ℝ)) (a b : ℝ) : Option ℝ :=
  if (splineAt num table ((a + b) / 2 - (b - a) / 2 * outerNode)).isSome ∧ (splineAt num table ((a + b) / 2 + (b - a) / 2 * outerNode)).isSome
  then some (num.integral (num.curve table) a b) else none

/-- `np.sqrt`. -/
noncomputable def npSqrt (x : ℝ) : Option ℝ := if x < 0 then none else some (Real.sqrt x)

/-- `10*np.log10`. -/
noncomputable def npDecibel (x : ℝ) : Option ℝ := if x ≤ 0 then none else some (10 * Real.logb 10 x)

/-- The dictionary returned (341), without the copies of the inputs. -/
structure NoiseInfo where
  freqs : List ℝ
  spectrum : List (Option ℝ)
  specUnits : List Nat
  noise : Option ℝ
  noiseUnits : List Nat

/-- gemlog_aux.py:313-341 `_noise_spectrum_helper`. -/
noncomputable def noiseHelper (num : Numerics) (table : List (ℝ × ℝ)) (freq : Option (List ℝ)) (spectype : List Nat) (fmin fmax : Option ℝ) :
    Except Exc NoiseInfo :=
  let freqs := freq.getD (table.map Prod.fst)                                                -- 314-315
  let power := freqs.map (splineAt num table)                                                -- 316-317
  let noise := fmin.bind fun a => fmax.bind fun b => quadSpline num table a b                -- 318-321
  if lower spectype = bytes "power" then .ok ⟨freqs, power, bytes "Pa^2/Hz", noise, bytes "Pa^2"⟩
  else if (lower spectype).take 3 = bytes "amp" then
    .ok ⟨freqs, power.map (·.bind npSqrt), bytes "Pa/sqrt(Hz)", noise.bind npSqrt, bytes "Pa"⟩
  else if lower spectype = bytes "db" then
    .ok ⟨freqs, power.map (·.bind npDecibel), bytes "dB Pa/sqrt(Hz)", noise.bind npDecibel, bytes "dB Pa"⟩
  else .error .other

/-- gemlog_aux.py:206-254 `gem_noise`. `version`: what `float(version)` gives, if anything; `table`: frequencies and amplitudes in the file
Gem_v0.98_Noise_spec.txt. -/
noncomputable def gemNoise (num : Numerics) (table : List (ℝ × ℝ)) (freq : Option (List ℝ)) (spectype : List Nat) (version : Option ℝ)
    (fmin fmax : Option ℝ) : Except Exc NoiseInfo :=
  match version with
  | none => .error .other
  | some v => if 0.97 ≤ v then noiseHelper num (table.map fun p => (p.1, p.2 ^ 2)) freq spectype fmin fmax else .error .other

/-- A line of IMSNOISE_MIN_MED_MAX.txt. -/
structure ImsRow where
  f : ℝ
  min : ℝ
  med : ℝ
  max : ℝ

/-- gemlog_aux.py:300-307: the column for a model. -/
noncomputable def imsColumn (model : List Nat) : Option (ImsRow → ℝ) :=
  if lower model = bytes "low" ∨ lower model = bytes "min" then some ImsRow.min
  else if lower model = bytes "med" then some ImsRow.med
  else if lower model = bytes "high" ∨ lower model = bytes "hi" ∨ lower model = bytes "max" then some ImsRow.max
  else none

/-- gemlog_aux.py:256-309 `ims_noise`. -/
noncomputable def imsNoise (num : Numerics) (rows : List ImsRow) (model : List Nat) (freq : Option (List ℝ)) (spectype : List Nat)
    (fmin fmax : Option ℝ) : Except Exc NoiseInfo :=
  match imsColumn model with
  | none => .error .other
  | some col => noiseHelper num (rows.map fun r => (r.f, (10 : ℝ) ^ col r)) freq spectype fmin fmax

end Gemlog
