import Verif.Model.Millis

namespace Gemlog

/-- Recursive form of the stairstep computation (helper for proofs). -/
def stepDelta (R : Rat) : Option Rat → Rat → Int
  | none, _ => 0
  | some p, x => (if x - p < -(R / 2) then 1 else 0) - (if x - p > R / 2 then 1 else 0)

/-- Recursive form of `correctedRaw` (helper for proofs). -/
def walk (R : Rat) : Option Rat → Int → List Rat → List Rat
  | _, _, [] => []
  | prev, k, x :: xs =>
    (((k + stepDelta R prev x : Int) : Rat) * R + x) ::
      walk R (some x) (k + stepDelta R prev x) xs

theorem walk_eq (R : Rat) (s : List Rat) : ∀ (prev : Option Rat) (a b : Int),
    List.zipWith (fun a b => a + b)
      ((List.zipWith (fun a b => a - b)
        (cumsumFrom a ((pdDiffFrom prev s).map (isUp R)))
        (cumsumFrom b ((pdDiffFrom prev s).map (isDown R)))).map fun (n : Int) => (n : Rat) * R) s
    = walk R prev (a - b) s := by
  induction s with
  | nil => intro prev a b; simp [walk]
  | cons x xs ih =>
    intro prev a b
    cases prev with
    | none =>
      simp only [pdDiffFrom, Option.map_none, List.map_cons, cumsumFrom, List.zipWith_cons_cons,
        walk, stepDelta, isUp, isDown, add_zero]
      rw [ih]
    | some p =>
      simp only [pdDiffFrom, Option.map_some, List.map_cons, cumsumFrom, List.zipWith_cons_cons,
        walk, stepDelta, isUp, isDown]
      rw [ih]
      have : ∀ u v : Int, a + u - (b + v) = a - b + (u - v) := by intros; ring
      rw [this]

theorem correctedRaw_eq_walk (R : Rat) (s : List Rat) : correctedRaw R s = walk R none 0 s := by
  have := walk_eq R s none 0 0
  simpa only [correctedRaw, stairstep, stepUp, stepDown, cumsum, pdDiff, sub_zero] using this

theorem int_lt_of_mul {m : Int} {R c : Rat} (hR : 0 < R) (h : (m : Rat) * R < c * R) :
    (m : Rat) < c := lt_of_mul_lt_mul_right h hR.le

theorem stepDelta_true {R p x tp t : Rat} {j j' : Int} (hR : 0 < R)
    (hp0 : 0 ≤ p) (hpR : p < R) (hx0 : 0 ≤ x) (hxR : x < R)
    (htp : tp = p + j * R) (ht : t = x + j' * R)
    (h1 : t - tp < R / 2) (h2 : -(R / 2) < t - tp) :
    stepDelta R (some p) x = j' - j := by
  have e : x - p = (t - tp) - ((j' - j : Int) : Rat) * R := by push_cast; rw [ht, htp]; ring
  have b1 : ((j' - j : Int) : Rat) * R < (3 / 2) * R := by linarith
  have b2 : (-(3 / 2)) * R < ((j' - j : Int) : Rat) * R := by linarith
  have c1 := int_lt_of_mul hR b1
  have c2 : (-(3 / 2) : Rat) < ((j' - j : Int) : Rat) := lt_of_mul_lt_mul_right b2 hR.le
  have d1 : j' - j < 2 := by
    have : ((j' - j : Int) : Rat) < (2 : Int) := by push_cast at *; linarith
    exact_mod_cast this
  have d2 : -2 < j' - j := by
    have : ((-2 : Int) : Rat) < ((j' - j : Int) : Rat) := by push_cast at *; linarith
    exact_mod_cast this
  have d3 : j' - j = -1 ∨ j' - j = 0 ∨ j' - j = 1 := by omega
  rcases d3 with h | h | h <;> rw [h] at e ⊢ <;> simp only [stepDelta] <;> push_cast at e
  · rw [if_neg (by linarith), if_pos (by linarith)]; rfl
  · rw [if_neg (by linarith), if_neg (by linarith)]; rfl
  · rw [if_pos (by linarith), if_neg (by linarith)]; rfl

theorem walk_true {R : Rat} (hR : 0 < R) : ∀ (T s : List Rat) (tp p : Rat) (j k : Int),
    List.Forall₂ (fun t x => 0 ≤ x ∧ x < R ∧ ∃ i : Int, t = x + i * R) T s →
    0 ≤ p → p < R → tp = p + j * R →
    List.IsChain (fun a b => b - a < R / 2 ∧ -(R / 2) < b - a) (tp :: T) →
    walk R (some p) k s = T.map (fun t => t + ((k - j : Int) : Rat) * R) := by
  intro T
  induction T with
  | nil => intro s tp p j k hf; cases hf; intros; simp [walk]
  | cons t T ih =>
    intro s tp p j k hf hp0 hpR htp hch
    cases hf with
    | cons hx hrest =>
      rename_i x s
      obtain ⟨hx0, hxR, i, hi⟩ := hx
      rw [List.isChain_cons_cons] at hch
      obtain ⟨⟨h1, h2⟩, hch⟩ := hch
      have hd := stepDelta_true hR hp0 hpR hx0 hxR htp hi h1 h2
      simp only [walk, hd, List.map_cons]
      rw [ih s t x i (k + (i - j)) hrest hx0 hxR hi hch]
      congr 1
      · rw [hi]; push_cast; ring
      · have : k + (i - j) - i = k - j := by ring
        rw [this]

end Gemlog
