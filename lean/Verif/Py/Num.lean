import Mathlib.Data.Rat.Floor
import Mathlib.Algebra.Order.Floor.Ring
import Mathlib.Tactic.Ring
import Mathlib.Tactic.Linarith
import Mathlib.Tactic.FieldSimp
import Mathlib.Tactic.Positivity
import Mathlib.Tactic.NormNum

/-!
# Python and numpy numeric primitives

C `double`, Python `float` and numpy `float64` are modelled as exact rationals.
Floating-point rounding and overflow are not modelled.
-/

namespace Gemlog

/-- Python / numpy / Cython (`cdivision=False`) modulo on numbers, `x % r` for `r > 0`:
the result has the sign of `r`. -/
def pyMod (x r : Rat) : Rat := x - r * ((⌊x / r⌋ : Int) : Rat)

theorem pyMod_nonneg (x : Rat) {r : Rat} (hr : 0 < r) : 0 ≤ pyMod x r := by
  have h := Int.floor_le (x / r)
  have h2 : r * ((⌊x / r⌋ : Int) : Rat) ≤ r * (x / r) := mul_le_mul_of_nonneg_left h hr.le
  have h3 : r * (x / r) = x := by field_simp
  unfold pyMod; linarith

theorem pyMod_lt (x : Rat) {r : Rat} (hr : 0 < r) : pyMod x r < r := by
  have h := Int.lt_floor_add_one (x / r)
  have h2 : r * (x / r) < r * (((⌊x / r⌋ : Int) : Rat) + 1) := mul_lt_mul_of_pos_left h hr
  have h3 : r * (x / r) = x := by field_simp
  unfold pyMod; linarith

/-- Two numbers in `[0, r)` that differ by a multiple of `r` are equal. -/
theorem eq_of_mod_range {a b r : Rat} {k : Int} (ha0 : 0 ≤ a) (har : a < r) (hb0 : 0 ≤ b)
    (hbr : b < r) (h : a = b + k * r) : a = b := by
  have hr : 0 < r := by linarith
  have hk : k = 0 := by
    have h1 : (k : Rat) * r < 1 * r := by linarith
    have h2 : (-1) * r < (k : Rat) * r := by linarith
    have h3 : (k : Rat) < 1 := lt_of_mul_lt_mul_right h1 hr.le
    have h4 : (-1 : Rat) < k := lt_of_mul_lt_mul_right h2 hr.le
    have h5 : k < 1 := by exact_mod_cast h3
    have h6 : -1 < k := by exact_mod_cast h4
    omega
  subst hk; simpa using h

theorem pyMod_spec (x r : Rat) : ∃ k : Int, x = pyMod x r + k * r :=
  ⟨⌊x / r⌋, by unfold pyMod; ring⟩

theorem pyMod_eq {x y r : Rat} {k : Int} (hr : 0 < r) (h : x = y + k * r) (h0 : 0 ≤ y)
    (h1 : y < r) : pyMod x r = y := by
  obtain ⟨j, hj⟩ := pyMod_spec x r
  refine eq_of_mod_range (k := k - j) (pyMod_nonneg x hr) (pyMod_lt x hr) h0 h1 ?_
  push_cast; linarith

/-- numpy `np.cumsum` / pandas `.cumsum()` on integers (booleans count as 0/1). -/
def cumsumFrom (acc : Int) : List Int → List Int
  | [] => []
  | x :: xs => (acc + x) :: cumsumFrom (acc + x) xs

/-- pandas `.cumsum()`. -/
def cumsum (l : List Int) : List Int := cumsumFrom 0 l

/-- pandas `Series.diff()` on a series whose previous element is `prev`;
the first difference of a series is NaN (`none`). -/
def pdDiffFrom : Option Rat → List Rat → List (Option Rat)
  | _, [] => []
  | prev, x :: xs => (prev.map (fun p => x - p)) :: pdDiffFrom (some x) xs

/-- pandas `Series.diff()`. -/
def pdDiff (l : List Rat) : List (Option Rat) := pdDiffFrom none l

/-- `np.diff`: differences of consecutive elements. -/
def npDiff : List Rat → List Rat
  | a :: b :: l => (b - a) :: npDiff (b :: l)
  | _ => []

end Gemlog
