import Mathlib.Tactic.Ring
import Mathlib.Tactic.Linarith
import Mathlib.Tactic.LinearCombination
import Mathlib.Tactic.FieldSimp
import Mathlib.Tactic.NormNum
import Verif.Model.Slowness
import Verif.Props.Windows

/-!
# C52: plane waves are recovered exactly

Specification: a plane wave with slowness vector `s` arrives at position `p` at time `s · p`, so the lag between sensors at `p` and `q`
is `s · (p - q)`. The sensors are collinear if some line `u x + v y = c` contains them all.
-/

namespace Gemlog

/-- The lag between two sensors for a plane wave. -/
def planeLag (s p q : Rat × Rat) : Rat := s.1 * (p.1 - q.1) + s.2 * (p.2 - q.2)

/-- All sensors are on one line. -/
def CollinearAt (pos : List Nat → Rat × Rat) (ids : List (List Nat)) : Prop :=
  ∃ u v c : Rat, (u ≠ 0 ∨ v ≠ 0) ∧ ∀ id ∈ ids, u * (pos id).1 + v * (pos id).2 = c

/-- A row of the table of locations is that of a sensor: `NETWORK.STATION.LOCATION`. -/
def LocRow.Of (r : LocRow) (id : List Nat) : Prop := id = r.network ++ [46] ++ r.station ++ [46] ++ r.location

/-- The location table has the sensors, at the positions `pos`. -/
def Located (locs : List LocRow) (pos : List Nat → Rat × Rat) (ids : List (List Nat)) : Prop :=
  ∀ id ∈ ids, (∃ r ∈ locs, r.Of id) ∧ ∀ r ∈ locs, r.Of id → (r.x, r.y) = pos id

theorem locRow_id (r : LocRow) (id : List Nat) : r.Of id ↔ r.id = id := by
  unfold LocRow.Of LocRow.id
  rw [show bytes "." = [46] by decide +kernel]
  exact eq_comm

instance (r : LocRow) (id : List Nat) : Decidable (r.Of id) := inferInstanceAs (Decidable (_ = _))

/-! ## Linear algebra -/

theorem sum_sq_nonneg (f : Rat × Rat → Rat) : ∀ g : List (Rat × Rat), 0 ≤ (g.map fun r => f r * f r).sum
  | [] => by simp
  | r :: g => by
    rw [List.map_cons, List.sum_cons]
    have := sum_sq_nonneg f g
    nlinarith [mul_self_nonneg (f r)]

theorem sum_sq_zero (f : Rat × Rat → Rat) : ∀ g : List (Rat × Rat), (g.map fun r => f r * f r).sum = 0 → ∀ r ∈ g, f r = 0
  | [], _, r, hr => by simp at hr
  | a :: g, h, r, hr => by
    rw [List.map_cons, List.sum_cons] at h
    have h1 := sum_sq_nonneg f g
    have h2 := mul_self_nonneg (f a)
    rcases List.mem_cons.mp hr with rfl | hr
    · have : f r * f r = 0 := by linarith
      exact mul_self_eq_zero.mp this
    · exact sum_sq_zero f g (by linarith) r hr

theorem sum_form (u v : Rat) : ∀ g : List (Rat × Rat), (g.map fun r => (u * r.1 + v * r.2) * (u * r.1 + v * r.2)).sum =
    u * u * (g.map fun r => r.1 * r.1).sum + 2 * (u * v) * (g.map fun r => r.1 * r.2).sum + v * v * (g.map fun r => r.2 * r.2).sum
  | [] => by simp
  | r :: g => by
    simp only [List.map_cons, List.sum_cons]
    rw [sum_form u v g]
    ring

theorem exists_kernel (g : List (Rat × Rat)) (h : gramDet g = 0) :
    ∃ u v : Rat, (u ≠ 0 ∨ v ≠ 0) ∧ ∀ r ∈ g, u * r.1 + v * r.2 = 0 := by
  unfold gramDet at h
  set a := (g.map fun r => r.1 * r.1).sum with ha
  set b := (g.map fun r => r.1 * r.2).sum with hb
  set c := (g.map fun r => r.2 * r.2).sum with hc
  by_cases hab : a = 0
  · -- then the first coordinates are all zero
    refine ⟨1, 0, Or.inl one_ne_zero, ?_⟩
    intro r hr
    have := sum_sq_zero (fun r => r.1) g (by rw [← hab]) r hr
    rw [this]; ring
  · refine ⟨b, -a, Or.inr (neg_ne_zero.mpr hab), ?_⟩
    apply sum_sq_zero (fun r => b * r.1 + -a * r.2)
    rw [sum_form b (-a) g, ← ha, ← hb, ← hc]
    linear_combination a * h

theorem kernel_sum1 (u v : Rat) : ∀ g : List (Rat × Rat), (∀ r ∈ g, u * r.1 + v * r.2 = 0) →
    u * (g.map fun r => r.1 * r.1).sum + v * (g.map fun r => r.1 * r.2).sum = 0
  | [], _ => by simp
  | r :: g, h => by
    simp only [List.map_cons, List.sum_cons]
    have e := h r List.mem_cons_self
    have := kernel_sum1 u v g (fun r hr => h r (List.mem_cons_of_mem _ hr))
    linear_combination r.1 * e + this

theorem kernel_sum2 (u v : Rat) : ∀ g : List (Rat × Rat), (∀ r ∈ g, u * r.1 + v * r.2 = 0) →
    u * (g.map fun r => r.1 * r.2).sum + v * (g.map fun r => r.2 * r.2).sum = 0
  | [], _ => by simp
  | r :: g, h => by
    simp only [List.map_cons, List.sum_cons]
    have e := h r List.mem_cons_self
    have := kernel_sum2 u v g (fun r hr => h r (List.mem_cons_of_mem _ hr))
    linear_combination r.2 * e + this

theorem gramDet_kernel (g : List (Rat × Rat)) (u v : Rat) (huv : u ≠ 0 ∨ v ≠ 0) (h : ∀ r ∈ g, u * r.1 + v * r.2 = 0) : gramDet g = 0 := by
  have h1 := kernel_sum1 u v g h
  have h2 := kernel_sum2 u v g h
  unfold gramDet
  rcases huv with hu | hv
  · apply mul_left_cancel₀ hu
    linear_combination (g.map fun r => r.2 * r.2).sum * h1 - (g.map fun r => r.1 * r.2).sum * h2
  · apply mul_left_cancel₀ hv
    linear_combination (g.map fun r => r.1 * r.1).sum * h2 - (g.map fun r => r.1 * r.2).sum * h1

theorem solve_sum1 (s : Rat × Rat) : ∀ g : List (Rat × Rat),
    ((g.zip (g.map fun r => s.1 * r.1 + s.2 * r.2)).map fun r => r.1.1 * r.2).sum =
      s.1 * (g.map fun r => r.1 * r.1).sum + s.2 * (g.map fun r => r.1 * r.2).sum
  | [] => by simp
  | r :: g => by
    simp only [List.map_cons, List.zip_cons_cons, List.sum_cons]
    rw [solve_sum1 s g]
    ring

theorem solve_sum2 (s : Rat × Rat) : ∀ g : List (Rat × Rat),
    ((g.zip (g.map fun r => s.1 * r.1 + s.2 * r.2)).map fun r => r.1.2 * r.2).sum =
      s.1 * (g.map fun r => r.1 * r.2).sum + s.2 * (g.map fun r => r.2 * r.2).sum
  | [] => by simp
  | r :: g => by
    simp only [List.map_cons, List.zip_cons_cons, List.sum_cons]
    rw [solve_sum2 s g]
    ring

theorem solve_exact (g : List (Rat × Rat)) (h : gramDet g ≠ 0) (s : Rat × Rat) :
    solveSlowness g (g.map fun r => s.1 * r.1 + s.2 * r.2) = s := by
  unfold solveSlowness
  dsimp only
  rw [solve_sum1, solve_sum2]
  unfold gramDet at h
  set a := (g.map fun r => r.1 * r.1).sum
  set b := (g.map fun r => r.1 * r.2).sum
  set c := (g.map fun r => r.2 * r.2).sum
  apply Prod.ext
  · dsimp only
    rw [div_eq_iff h]; ring
  · dsimp only
    rw [div_eq_iff h]; ring

/-! ## Pairs -/

theorem zip_dropLast {α : Type} : ∀ (l : List α) (a z : α), ((a :: l).zip (l ++ [z])).dropLast = (a :: l).zip l
  | [], a, z => by simp
  | b :: l, a, z => by
    have ih := zip_dropLast l b z
    rw [List.cons_append, List.zip_cons_cons, List.zip_cons_cons (a := a) (as := b :: l)]
    rw [List.dropLast_cons_of_ne_nil]
    · rw [ih]
    · cases l <;> simp

/-- Without the last pair, the pairs are those of neighbours. -/
theorem cyclicPairs_dropLast (ids : List (List Nat)) : (cyclicPairs ids).dropLast = ids.zip (ids.drop 1) := by
  cases ids with
  | nil => rfl
  | cons a l =>
    show ((a :: l).zip (l ++ [a])).dropLast = (a :: l).zip l
    exact zip_dropLast l a a

theorem cyclicPairs_fst (ids : List (List Nat)) : (cyclicPairs ids).map Prod.fst = ids := by
  unfold cyclicPairs
  apply List.map_fst_zip
  cases ids <;> simp

theorem mem_cyclicPairs {ids : List (List Nat)} {p : List Nat × List Nat} (h : p ∈ cyclicPairs ids) : p.1 ∈ ids ∧ p.2 ∈ ids := by
  unfold cyclicPairs at h
  have := List.of_mem_zip (a := p.1) (b := p.2) h
  refine ⟨this.1, ?_⟩
  rcases List.mem_append.mp this.2 with h | h
  · exact List.mem_of_mem_drop h
  · exact List.mem_of_mem_take h

/-- Sensors whose neighbours are on a line are all on it. -/
theorem chain_collinear (pos : List Nat → Rat × Rat) (u v : Rat) : ∀ (ids : List (List Nat)) (a : List Nat),
    (∀ p ∈ (a :: ids).zip ids, u * ((pos p.1).1 - (pos p.2).1) + v * ((pos p.1).2 - (pos p.2).2) = 0) →
    ∀ id ∈ a :: ids, u * (pos id).1 + v * (pos id).2 = u * (pos a).1 + v * (pos a).2
  | [], a, _, id, hid => by
    obtain rfl := List.mem_singleton.mp hid
    rfl
  | b :: ids, a, h, id, hid => by
    rcases List.mem_cons.mp hid with rfl | hid
    · rfl
    · have h1 := h (a, b) (by simp)
      dsimp only at h1
      have h2 := chain_collinear pos u v ids b (fun p hp => h p (by
        rw [List.zip_cons_cons]; exact List.mem_cons_of_mem _ hp)) id hid
      linear_combination h2 - h1

/-! ## Columns -/

theorem splitUnderscore_plain : ∀ w : List Nat, 95 ∉ w → splitUnderscore w = [w]
  | [], _ => rfl
  | c :: w, h => by
    simp only [List.mem_cons, not_or] at h
    rw [splitUnderscore, splitUnderscore_plain w h.2]
    exact fun e => h.1 e.symm

theorem shortIds_eq {keys : List (List Nat)} {ids : List (List Nat)} (h : keys.filter (isInfix (bytes "rms")) = ids.map (bytes "rms_" ++ ·))
    (hu : ∀ id ∈ ids, 95 ∉ id) : shortIds keys = some ids := by
  unfold shortIds
  rw [h]
  clear h
  induction ids with
  | nil => rfl
  | cons a ids ih =>
    have ih' := ih (fun id hid => hu id (List.mem_cons_of_mem _ hid))
    have ha := hu a List.mem_cons_self
    have : (splitUnderscore (bytes "rms_" ++ a))[1]? = some a := by
      have e : splitUnderscore (bytes "rms_" ++ a) = bytes "rms" :: splitUnderscore a := by
        show splitUnderscore (114 :: 109 :: 115 :: 95 :: a) = _
        simp [splitUnderscore]
        rfl
      rw [e, splitUnderscore_plain a ha]
      rfl
    rw [List.map_cons, List.mapM_cons, this, ih']
    rfl

theorem mapM_some_map {α β : Type} (f : α → Option β) (g : α → β) : ∀ l : List α, (∀ x ∈ l, f x = some (g x)) → l.mapM f = some (l.map g)
  | [], _ => rfl
  | a :: l, h => by
    rw [List.mapM_cons, h a List.mem_cons_self, mapM_some_map f g l (fun x hx => h x (List.mem_cons_of_mem _ hx))]
    rfl

theorem findLoc_eq {locs : List LocRow} {pos : List Nat → Rat × Rat} {ids : List (List Nat)} (h : Located locs pos ids) {id : List Nat}
    (hid : id ∈ ids) : findLoc locs id = some (pos id) := by
  obtain ⟨⟨r, hr, hri⟩, hall⟩ := h id hid
  rw [locRow_id] at hri
  unfold findLoc
  cases hf : locs.find? fun r => r.id = id with
  | none =>
    have := List.find?_eq_none.mp hf r hr
    simp [hri] at this
  | some q =>
    have h1 := List.mem_of_find?_eq_some hf
    have h2 := List.find?_some hf
    simp only [decide_eq_true_eq] at h2
    rw [Option.map_some, hall q h1 ((locRow_id q id).mpr h2)]

/-- The rows of the matrix. -/
def gapRow (pos : List Nat → Rat × Rat) (p : List Nat × List Nat) : Rat × Rat :=
  ((pos p.1).1 - (pos p.2).1, (pos p.1).2 - (pos p.2).2)

theorem design_eq {locs : List LocRow} {pos : List Nat → Rat × Rat} {ids : List (List Nat)} (h : Located locs pos ids) :
    (cyclicPairs ids).mapM (designRow locs) = some ((cyclicPairs ids).map (gapRow pos)) := by
  apply mapM_some_map
  intro p hp
  obtain ⟨h1, h2⟩ := mem_cyclicPairs hp
  unfold designRow
  rw [findLoc_eq h h1, findLoc_eq h h2]
  rfl

theorem gramDet_ne {pos : List Nat → Rat × Rat} {ids : List (List Nat)} (hc : ¬ CollinearAt pos ids) :
    gramDet ((ids.zip (ids.drop 1)).map (gapRow pos)) ≠ 0 := by
  intro h0
  obtain ⟨u, v, huv, hk⟩ := exists_kernel _ h0
  apply hc
  cases ids with
  | nil => exact ⟨u, v, 0, huv, by simp⟩
  | cons a l =>
    refine ⟨u, v, u * (pos a).1 + v * (pos a).2, huv, chain_collinear pos u v l a ?_⟩
    intro p hp
    exact hk _ (List.mem_map.mpr ⟨p, hp, rfl⟩)

/-- C52. Take any array of sensors that are not on one line, in any order, and a table of lags whose columns are those of the sensors.
Then the inversion succeeds, and in every window in which the lags are those of a plane wave, it returns exactly the slowness vector
of that wave. -/
theorem C52_plane_wave (tbl : LagTable) (locs : List LocRow) (ids : List (List Nat)) (pos : List Nat → Rat × Rat) (n : Nat)
    (hkeys : (tbl.map Prod.fst).filter (isInfix (bytes "rms")) = ids.map (bytes "rms_" ++ ·)) (hu : ∀ id ∈ ids, 95 ∉ id)
    (hloc : Located locs pos ids) (hnc : ¬ CollinearAt pos ids)
    (hlen : (tbl.headD ([], [])).2.length = n)
    (hlags : ∀ p ∈ ids.zip (ids.drop 1), ∃ col, tbl.lookup (bytes "lag_" ++ p.1 ++ bytes "_" ++ p.2) = some col ∧ col.length = n) :
    ∃ res, invertForSlowness tbl locs = .ok res ∧ res.length = n ∧
      ∀ (w : Nat) (s : Rat × Rat), w < n →
        (∀ p ∈ ids.zip (ids.drop 1), ∃ col, tbl.lookup (bytes "lag_" ++ p.1 ++ bytes "_" ++ p.2) = some col ∧
          col[w]? = some (some (planeLag s (pos p.1) (pos p.2)))) →
        res[w]? = some (some s) := by
  have hdet := gramDet_ne hnc
  -- the lags of a window
  have hl : ∀ w < n, ∃ l, lagsAt tbl ((ids.zip (ids.drop 1)).map fun p => lagKey p.1 p.2) w = some l ∧
      ∀ s, (∀ p ∈ ids.zip (ids.drop 1), ∃ col, tbl.lookup (bytes "lag_" ++ p.1 ++ bytes "_" ++ p.2) = some col ∧
          col[w]? = some (some (planeLag s (pos p.1) (pos p.2)))) →
        l = some (((ids.zip (ids.drop 1)).map (gapRow pos)).map fun r => s.1 * r.1 + s.2 * r.2) := by
    intro w hw
    unfold lagsAt
    have hex : ∀ k ∈ (ids.zip (ids.drop 1)).map fun p => lagKey p.1 p.2,
        ((tbl.lookup k).bind fun col => col[w]?) = some (((tbl.lookup k).bind fun col => col[w]?).getD none) := by
      intro k hk
      obtain ⟨p, hp, rfl⟩ := List.mem_map.mp hk
      obtain ⟨col, h1, h2⟩ := hlags p hp
      unfold lagKey
      rw [h1, Option.bind_some, List.getElem?_eq_getElem (by omega)]
      rfl
    rw [mapM_some_map _ _ _ hex, Option.map_some]
    refine ⟨_, rfl, ?_⟩
    intro s hs
    rw [List.map_map, List.map_map, List.mapM_map]
    apply mapM_some_map
    intro p hp
    obtain ⟨col, h1, h2⟩ := hs p hp
    simp only [Function.comp_apply, lagKey, id_eq]
    rw [h1, Option.bind_some, h2]
    rfl
  have hrows : (List.range n).mapM (lagsAt tbl ((ids.zip (ids.drop 1)).map fun p => lagKey p.1 p.2)) =
      some ((List.range n).map fun w => (lagsAt tbl ((ids.zip (ids.drop 1)).map fun p => lagKey p.1 p.2) w).getD none) := by
    apply mapM_some_map
    intro w hw
    obtain ⟨l, h1, -⟩ := hl w (List.mem_range.mp hw)
    rw [h1]
    rfl
  have hne : ids ≠ [] := by
    rintro rfl
    exact hnc ⟨1, 0, 0, Or.inl one_ne_zero, by simp⟩
  have hinv : invertForSlowness tbl locs = .ok
      (((List.range n).map fun w => (lagsAt tbl ((ids.zip (ids.drop 1)).map fun p => lagKey p.1 p.2) w).getD none).map
        fun o => o.map (solveSlowness ((ids.zip (ids.drop 1)).map (gapRow pos)))) := by
    unfold invertForSlowness
    rw [shortIds_eq hkeys hu]
    dsimp only
    rw [design_eq hloc]
    have hcons : (cyclicPairs ids).map (gapRow pos) ≠ [] := by
      intro h
      have := cyclicPairs_fst ids
      rw [List.map_eq_nil_iff.mp h] at this
      exact hne this.symm
    have hdrop : ((cyclicPairs ids).map (gapRow pos)).dropLast = (ids.zip (ids.drop 1)).map (gapRow pos) := by
      rw [← List.map_dropLast, cyclicPairs_dropLast]
    have hdrop2 : ((cyclicPairs ids).map fun p => lagKey p.1 p.2).dropLast = (ids.zip (ids.drop 1)).map fun p => lagKey p.1 p.2 := by
      rw [← List.map_dropLast, cyclicPairs_dropLast]
    cases hg : (cyclicPairs ids).map (gapRow pos) with
    | nil => exact absurd hg hcons
    | cons g0 g =>
      dsimp only
      rw [hg] at hdrop
      rw [hdrop, if_neg hdet, hdrop2, hlen, hrows]
  refine ⟨_, hinv, by simp, ?_⟩
  intro w s hw hs
  obtain ⟨l, h1, h2⟩ := hl w hw
  rw [List.getElem?_map, List.getElem?_map, List.getElem?_range hw, Option.map_some, Option.map_some, h1, h2 s hs]
  simp only [Option.getD_some, Option.map_some]
  rw [solve_exact _ hdet]

/-- If the sensors are on one line there is no result: the inversion raises an exception. -/
theorem C52_collinear (tbl : LagTable) (locs : List LocRow) (ids : List (List Nat)) (pos : List Nat → Rat × Rat)
    (hkeys : (tbl.map Prod.fst).filter (isInfix (bytes "rms")) = ids.map (bytes "rms_" ++ ·)) (hu : ∀ id ∈ ids, 95 ∉ id)
    (hloc : Located locs pos ids) (hc : CollinearAt pos ids) : invertForSlowness tbl locs = .error .other := by
  unfold invertForSlowness
  rw [shortIds_eq hkeys hu]
  dsimp only
  rw [design_eq hloc]
  cases hg : (cyclicPairs ids).map (gapRow pos) with
  | nil => rfl
  | cons g0 g =>
    dsimp only
    rw [if_pos]
    rw [← hg, ← List.map_dropLast, cyclicPairs_dropLast]
    obtain ⟨u, v, c, huv, hall⟩ := hc
    apply gramDet_kernel _ u v huv
    intro r hr
    obtain ⟨p, hp, rfl⟩ := List.mem_map.mp hr
    have hp' : p ∈ cyclicPairs ids := List.mem_of_mem_dropLast (by rw [cyclicPairs_dropLast]; exact hp)
    obtain ⟨h1, h2⟩ := mem_cyclicPairs hp'
    unfold gapRow
    linear_combination hall _ h1 - hall _ h2

/-- The slowness reported is the length of the slowness vector; the backazimuth is the compass direction, clockwise from north, that the
wave comes from, that is, against the slowness vector (x east, y north), and is above -180 and at most 180 degrees. -/
theorem C52_direction (s : Rat × Rat) :
    0 ≤ slownessOf s ∧ slownessOf s ^ 2 = (s.1 : ℝ) ^ 2 + (s.2 : ℝ) ^ 2 ∧
    slownessOf s * Real.sin (backazimuthOf s * Real.pi / 180) = -(s.1 : ℝ) ∧
    slownessOf s * Real.cos (backazimuthOf s * Real.pi / 180) = -(s.2 : ℝ) ∧
    -180 < backazimuthOf s ∧ backazimuthOf s ≤ 180 := by
  have hpi := Real.pi_pos
  have harg : backazimuthOf s * Real.pi / 180 = Complex.arg ⟨-(s.2 : ℝ), -(s.1 : ℝ)⟩ := by
    unfold backazimuthOf
    field_simp
  have hnorm : ‖(⟨-(s.2 : ℝ), -(s.1 : ℝ)⟩ : ℂ)‖ = slownessOf s := by
    unfold slownessOf
    rw [Complex.norm_def, Complex.normSq_mk]
    congr 1
    ring
  refine ⟨Real.sqrt_nonneg _, Real.sq_sqrt (by positivity), ?_, ?_, ?_, ?_⟩
  · rw [harg, ← hnorm, Complex.norm_mul_sin_arg]
  · rw [harg, ← hnorm, Complex.norm_mul_cos_arg]
  · have := Complex.neg_pi_lt_arg ⟨-(s.2 : ℝ), -(s.1 : ℝ)⟩
    unfold backazimuthOf
    rw [lt_div_iff₀ hpi]
    linarith
  · have := Complex.arg_le_pi ⟨-(s.2 : ℝ), -(s.1 : ℝ)⟩
    unfold backazimuthOf
    rw [div_le_iff₀ hpi]
    linarith

/-! ## From windows to slowness -/

/-- The result of the windows as a table of lags. -/
def lagTableOf (t : WTable Rat) : LagTable := t.map fun p => (p.1, p.2.map fun c => match c with
  | .val v => some v
  | _ => none)

theorem isInfix_iff_infix (a : List Nat) : ∀ l : List Nat, isInfix a l = true ↔ a <:+: l
  | [] => by simp [isInfix]
  | c :: l => by
    rw [isInfix, Bool.or_eq_true, isInfix_iff_infix a l, List.infix_cons_iff, List.isPrefixOf_iff_prefix]

/-- A word without underscore is in `a_b` only if it is in `a` or in `b`. -/
theorem infix_underscore {w a b : List Nat} (hw : 95 ∉ w) (h : w <:+: a ++ 95 :: b) : w <:+: a ∨ w <:+: b := by
  obtain ⟨s, t, h⟩ := h
  rw [List.append_assoc, List.append_eq_append_iff] at h
  rcases h with ⟨m, h1, h2⟩ | ⟨m, h1, h2⟩
  · -- `w` starts in `a`
    rw [List.append_eq_append_iff] at h2
    rcases h2 with ⟨k, h3, h4⟩ | ⟨k, h3, h4⟩
    · left
      rw [h1, h3]
      exact ⟨s, k, by simp⟩
    · cases k with
      | nil =>
        left
        rw [List.append_nil] at h3
        rw [h1, h3]
        exact ⟨s, [], by simp⟩
      | cons c k =>
        rw [List.cons_append, List.cons.injEq] at h4
        exfalso
        apply hw
        rw [h3, ← h4.1]
        simp
  · cases m with
    | nil =>
      rw [List.nil_append] at h2
      cases w with
      | nil => left; exact List.nil_infix
      | cons c w =>
        rw [List.cons_append, List.cons.injEq] at h2
        exfalso
        apply hw
        rw [h2.1]
        simp
    | cons c m =>
      rw [List.cons_append, List.cons.injEq] at h2
      right
      exact ⟨m, t, by rw [List.append_assoc]; exact h2.2.symm⟩

theorem rms_not_in {a b : List Nat} (ha : isInfix (bytes "rms") a = false) (hb : isInfix (bytes "rms") b = false) :
    isInfix (bytes "rms") (a ++ 95 :: b) = false := by
  rw [Bool.eq_false_iff] at *
  intro h
  rw [Ne, isInfix_iff_infix] at ha hb
  rw [isInfix_iff_infix] at h
  rcases infix_underscore (by decide) h with h | h
  · exact ha h
  · exact hb h

/-- In the columns of the cross-correlation of the sensors `ids`, those with `rms` in their names are one for each sensor, in order, if no
sensor has it in its own name. -/
theorem rms_columns (ids : List (List Nat)) (hr : ∀ id ∈ ids, isInfix (bytes "rms") id = false) :
    (bytes "t_mid" :: xcorrKeys ids).filter (isInfix (bytes "rms")) = ids.map (bytes "rms_" ++ ·) := by
  have hpair : ∀ l : List (List Nat × List Nat), (∀ p ∈ l, isInfix (bytes "rms") p.1 = false ∧ isInfix (bytes "rms") p.2 = false) →
      (l.flatMap fun p => [bytes "rms_" ++ p.1, lagKey p.1 p.2, bytes "r_" ++ p.1 ++ bytes "_" ++ p.2]).filter (isInfix (bytes "rms")) =
        (l.map Prod.fst).map (bytes "rms_" ++ ·) := by
    intro l
    induction l with
    | nil => intro _; rfl
    | cons p l ih =>
      intro h
      obtain ⟨h1, h2⟩ := h p List.mem_cons_self
      rw [List.flatMap_cons, List.filter_append, ih (fun q hq => h q (List.mem_cons_of_mem _ hq))]
      have k1 : isInfix (bytes "rms") (bytes "rms_" ++ p.1) = true := by
        rw [isInfix_iff_infix]
        exact ⟨[], 95 :: p.1, rfl⟩
      have k2 : isInfix (bytes "rms") (lagKey p.1 p.2) = false := by
        have : lagKey p.1 p.2 = bytes "lag" ++ 95 :: (p.1 ++ 95 :: p.2) := by
          unfold lagKey
          simp [bytes]
        rw [this]
        exact rms_not_in (by decide) (rms_not_in h1 h2)
      have k3 : isInfix (bytes "rms") (bytes "r_" ++ p.1 ++ bytes "_" ++ p.2) = false := by
        have : bytes "r_" ++ p.1 ++ bytes "_" ++ p.2 = bytes "r" ++ 95 :: (p.1 ++ 95 :: p.2) := by simp [bytes]
        rw [this]
        exact rms_not_in (by decide) (rms_not_in h1 h2)
      simp only [List.filter_cons, k1, k2, k3, if_true, List.filter_nil, List.map_cons]
      rfl
  unfold xcorrKeys
  have h1 : isInfix (bytes "rms") (bytes "t_mid") = false := by decide
  have h2 : isInfix (bytes "rms") (bytes "mean_coef") = false := by decide
  have h3 : isInfix (bytes "rms") (bytes "consistency") = false := by decide
  rw [List.filter_cons, h1, List.cons_append, List.filter_cons, h2, List.filter_append, hpair, cyclicPairs_fst]
  · simp [h3]
  · intro p hp
    obtain ⟨a, b⟩ := mem_cyclicPairs hp
    exact ⟨hr _ a, hr _ b⟩

/-! ### Names of the columns of a sliding-window result -/

theorem appendCell_keys {V : Type} (k : List Nat) (c : WCell V) (t : WTable V) : (appendCell k c t).map Prod.fst = t.map Prod.fst := by
  unfold appendCell
  rw [List.map_map]
  apply List.map_congr_left
  intro p _
  simp only [Function.comp_apply]
  split <;> rfl

theorem fillMissing_keys {V : Type} (w : List (List Nat × V)) (t : WTable V) : (fillMissing w t).map Prod.fst = t.map Prod.fst := by
  unfold fillMissing
  rw [List.map_map]
  apply List.map_congr_left
  intro p _
  simp only [Function.comp_apply]
  split <;> rfl

theorem putValue_keys {V : Type} (i : Nat) (t : WTable V) (kv : List Nat × V) :
    (putValue i t kv).map Prod.fst = if kv.1 ∈ t.map Prod.fst then t.map Prod.fst else t.map Prod.fst ++ [kv.1] := by
  unfold putValue
  dsimp only
  rw [appendCell_keys]
  by_cases h : kv.1 ∈ t.map Prod.fst
  · rw [if_pos (by simpa using h), if_pos h]
  · rw [if_neg (by simpa using h), if_neg h]
    simp

theorem putValues_keys {V : Type} (i : Nat) : ∀ (w : List (List Nat × V)) (t : WTable V), (w.map Prod.fst).Nodup →
    (w.foldl (putValue i) t).map Prod.fst = t.map Prod.fst ++ (w.map Prod.fst).filter fun k => decide (k ∉ t.map Prod.fst)
  | [], t, _ => by simp
  | kv :: w, t, hnd => by
    rw [List.map_cons, List.nodup_cons] at hnd
    rw [List.foldl_cons, putValues_keys i w _ hnd.2, putValue_keys, List.map_cons, List.filter_cons]
    by_cases h : kv.1 ∈ t.map Prod.fst
    · rw [if_pos h, if_neg (by simpa using h)]
    · rw [if_neg h, if_pos (by simpa using h), List.append_assoc]
      congr 1
      rw [List.cons_append, List.nil_append]
      congr 1
      apply List.filter_congr
      intro k hk
      have : k ≠ kv.1 := fun e => hnd.1 (e ▸ hk)
      simp [this]

theorem putWindow_keys {V : Type} (i : Nat) (t : WTable V) (w : List (List Nat × V)) (mid : Rat) (hnd : (w.map Prod.fst).Nodup) :
    (putWindow i t w mid).map Prod.fst = t.map Prod.fst ++ (w.map Prod.fst).filter fun k => decide (k ∉ t.map Prod.fst) := by
  unfold putWindow
  rw [appendCell_keys, fillMissing_keys, putValues_keys i w t hnd]

/-- If all windows have the same results in the same order, the columns are `t_mid` and these. -/
theorem windowLoop_keys {V : Type} (f : List WTrace → Except Exc (List (List Nat × V))) (st : List WTrace) (win : Rat)
    (ks : List (List Nat)) (hnd : ks.Nodup) : ∀ (starts : List Rat) (i : Nat) (t r : WTable V),
      (∀ s ∈ starts, ∃ w, f (windowData st win s) = .ok w ∧ w.map Prod.fst = ks) →
      t.map Prod.fst = bytes "t_mid" :: ks → windowLoop f st win i t starts = .ok r → r.map Prod.fst = bytes "t_mid" :: ks
  | [], i, t, r, _, ht, hr => by
    simp only [windowLoop, Except.ok.injEq] at hr
    rw [← hr, ht]
  | s :: rest, i, t, r, hf, ht, hr => by
    obtain ⟨w, hw, hwk⟩ := hf s List.mem_cons_self
    rw [windowLoop, hw] at hr
    dsimp only at hr
    apply windowLoop_keys f st win ks hnd rest (i + 1) _ r (fun s hs => hf s (List.mem_cons_of_mem _ hs)) _ hr
    rw [putWindow_keys i t w _ (hwk ▸ hnd), ht, hwk]
    have : ks.filter (fun k => decide (k ∉ bytes "t_mid" :: ks)) = [] := by
      rw [List.filter_eq_nil_iff]
      intro k hk
      simp [hk]
    rw [this, List.append_nil]

theorem lagTableOf_keys (t : WTable Rat) : (lagTableOf t).map Prod.fst = t.map Prod.fst := by
  unfold lagTableOf
  rw [List.map_map]
  rfl

theorem lagTableOf_lookup (key : List Nat) : ∀ t : WTable Rat, (lagTableOf t).lookup key = (t.lookup key).map fun l => l.map fun c => match c with
    | .val v => some v
    | _ => none
  | [] => rfl
  | (k, l) :: t => by
    show List.lookup key ((k, _) :: lagTableOf t) = _
    rw [List.lookup_cons, List.lookup_cons]
    by_cases h : key = k
    · subst h; simp
    · rw [beq_eq_false_iff_ne.mpr h]
      exact lagTableOf_lookup key t

/-- C52, from the windows on: if the analysis of every window has the results of the cross-correlation of the same sensors, and its lags
are those of a plane wave, a different one for each window, then the inversion of the combined table returns these waves, in order. -/
theorem C52_windows (f : List WTrace → Except Exc (List (List Nat × Rat))) (st : List WTrace) (win overlap : Rat) (starts : List Rat)
    (r : WTable Rat) (hs : windowStarts st win overlap = .ok starts) (hne : starts ≠ []) (hr : applyWindows f st win overlap = .ok r)
    (ids : List (List Nat)) (hnd : (xcorrKeys ids).Nodup) (hu : ∀ id ∈ ids, 95 ∉ id)
    (hrms : ∀ id ∈ ids, isInfix (bytes "rms") id = false) (locs : List LocRow) (pos : List Nat → Rat × Rat)
    (hloc : Located locs pos ids) (hnc : ¬ CollinearAt pos ids) (wave : Nat → Rat × Rat)
    (hf : ∀ s ∈ starts, ∀ w, f (windowData st win s) = .ok w → w.map Prod.fst = xcorrKeys ids)
    (hw : ∀ i (h : i < starts.length) w, f (windowData st win starts[i]) = .ok w →
      ∀ p ∈ ids.zip (ids.drop 1), w.lookup (bytes "lag_" ++ p.1 ++ bytes "_" ++ p.2) = some (planeLag (wave i) (pos p.1) (pos p.2))) :
    ∃ res, invertForSlowness (lagTableOf r) locs = .ok res ∧ res.length = starts.length ∧
      ∀ i, i < starts.length → res[i]? = some (some (wave i)) := by
  have htm : bytes "t_mid" ∉ xcorrKeys ids := by
    intro h
    unfold xcorrKeys at h
    simp only [List.cons_append, List.mem_cons, List.mem_append, List.mem_flatMap, List.not_mem_nil, or_false] at h
    rcases h with h | ⟨p, -, h | h | h⟩ | h
    · exact absurd h (by decide)
    · simp [bytes] at h
    · simp [bytes, lagKey] at h
    · simp [bytes] at h
    · exact absurd h (by decide)
  obtain ⟨ws, hwl, hwf, hmid, hcols⟩ := C51_aligned_partial f st win overlap starts r hs
    (fun s hs' w h => by rw [hf s hs' w h]; exact ⟨hnd, htm⟩) hr
  have hkeys : r.map Prod.fst = bytes "t_mid" :: xcorrKeys ids := by
    have hr' := hr
    unfold applyWindows at hr'
    rw [hs] at hr'
    cases starts with
    | nil => exact absurd rfl hne
    | cons s rest =>
      dsimp only at hr'
      have hall : ∀ x ∈ s :: rest, ∃ w, f (windowData st win x) = .ok w ∧ w.map Prod.fst = xcorrKeys ids := by
        intro x hx
        obtain ⟨i, hi, rfl⟩ := List.getElem_of_mem hx
        obtain ⟨w, -, h⟩ := hwf i hi
        exact ⟨w, h, hf _ (List.getElem_mem hi) w h⟩
      obtain ⟨w, hw1, hwk⟩ := hall s List.mem_cons_self
      rw [windowLoop, hw1] at hr'
      dsimp only at hr'
      apply windowLoop_keys f st win (xcorrKeys ids) hnd rest _ _ r (fun x hx => hall x (List.mem_cons_of_mem _ hx)) _ hr'
      rw [putWindow_keys _ _ _ _ (hwk ▸ hnd), hwk]
      simp only [List.map_cons, List.map_nil, List.cons_append, List.nil_append]
      congr 1
      rw [List.filter_eq_self]
      intro k hk
      have : k ≠ bytes "t_mid" := fun e => htm (e ▸ hk)
      simp [this]
  -- each window's results
  have hws : ∀ i w, ws[i]? = some w → ∃ h : i < starts.length, f (windowData st win starts[i]) = .ok w := by
    intro i w hi
    have hlt : i < starts.length := by rw [← hwl]; exact (List.getElem?_eq_some_iff.mp hi).1
    obtain ⟨w', h1, h2⟩ := hwf i hlt
    rw [hi] at h1
    injection h1 with h1
    exact ⟨hlt, h1 ▸ h2⟩
  have hlag : ∀ p ∈ ids.zip (ids.drop 1), ∃ col, (lagTableOf r).lookup (bytes "lag_" ++ p.1 ++ bytes "_" ++ p.2) = some col ∧
      col.length = starts.length ∧ ∀ i, i < starts.length → col[i]? = some (some (planeLag (wave i) (pos p.1) (pos p.2))) := by
    intro p hp
    have hk : bytes "lag_" ++ p.1 ++ bytes "_" ++ p.2 ≠ bytes "t_mid" := by simp [bytes]
    obtain ⟨hsome, hcol⟩ := hcols _ hk
    have hpos : 0 < starts.length := List.length_pos_iff.mpr hne
    have : (r.col (bytes "lag_" ++ p.1 ++ bytes "_" ++ p.2)).isSome := by
      rw [hsome]
      obtain ⟨w, h1, h2⟩ := hwf 0 hpos
      refine ⟨w, List.mem_of_getElem? h1, ?_⟩
      have := hw 0 hpos w h2 p hp
      by_contra hno
      rw [(lookup_none_iff _ _).mpr hno] at this
      simp at this
    obtain ⟨col, hc⟩ := Option.isSome_iff_exists.mp this
    obtain ⟨hlen, hcell⟩ := hcol col hc
    refine ⟨_, by rw [lagTableOf_lookup]; unfold WTable.col at hc; rw [hc]; rfl, by simpa using hlen, ?_⟩
    intro i hi
    obtain ⟨w, h1, h2⟩ := hwf i hi
    rw [List.getElem?_map, hcell i w h1, hw i hi w h2 p hp]
    rfl
  obtain ⟨res, h1, h2, h3⟩ := C52_plane_wave (lagTableOf r) locs ids pos starts.length
    (by rw [lagTableOf_keys, hkeys]; exact rms_columns ids hrms) hu hloc hnc (by
      cases hrr : r with
      | nil => rw [hrr] at hkeys; simp at hkeys
      | cons a t =>
        rw [hrr, List.map_cons, List.cons.injEq] at hkeys
        unfold WTable.col at hmid
        rw [hrr, List.lookup_cons, beq_iff_eq.mpr hkeys.1.symm] at hmid
        simp only [Option.some.injEq] at hmid
        simp [lagTableOf, hmid]) (fun p hp => by
      obtain ⟨col, a, b, -⟩ := hlag p hp
      exact ⟨col, a, b⟩)
  refine ⟨res, h1, h2, fun i hi => h3 i (wave i) hi fun p hp => ?_⟩
  obtain ⟨col, a, -, c⟩ := hlag p hp
  exact ⟨col, a, c i hi⟩

/-! ## A sensor that is missing at the start -/

theorem windowLoop_stable {V : Type} (f : List WTrace → Except Exc (List (List Nat × V))) (st : List WTrace) (win : Rat) :
    ∀ (starts : List Rat) (i : Nat) (t r : WTable V),
      (∀ s ∈ starts, ∀ w, f (windowData st win s) = .ok w → (w.map Prod.fst).Nodup ∧ ∀ k ∈ w.map Prod.fst, k ∈ t.map Prod.fst) →
      windowLoop f st win i t starts = .ok r → r.map Prod.fst = t.map Prod.fst
  | [], i, t, r, _, hr => by
    simp only [windowLoop, Except.ok.injEq] at hr
    rw [← hr]
  | s :: rest, i, t, r, hf, hr => by
    rw [windowLoop] at hr
    cases hw : f (windowData st win s) with
    | error e => rw [hw] at hr; simp at hr
    | ok w =>
      rw [hw] at hr
      dsimp only at hr
      obtain ⟨hnd, hk⟩ := hf s List.mem_cons_self w hw
      have he : (putWindow i t w (s + win / 2)).map Prod.fst = t.map Prod.fst := by
        rw [putWindow_keys i t w _ hnd]
        have : (w.map Prod.fst).filter (fun k => decide (k ∉ t.map Prod.fst)) = [] := by
          rw [List.filter_eq_nil_iff]
          intro k hkk
          simpa using hk k hkk
        rw [this, List.append_nil]
      rw [← he]
      apply windowLoop_stable f st win rest (i + 1) _ r _ hr
      intro s' hs' w' hw'
      rw [he]
      exact hf s' (List.mem_cons_of_mem _ hs') w' hw'

theorem splitUnderscore_two : ∀ a b : List Nat, 95 ∉ a → splitUnderscore (a ++ 95 :: b) = a :: splitUnderscore b
  | [], b, _ => by simp [splitUnderscore]
  | c :: a, b, h => by
    simp only [List.mem_cons, not_or] at h
    rw [List.cons_append, splitUnderscore, splitUnderscore_two a b h.2]
    exact fun e => h.1 e.symm

theorem lagKey_inj {a b c d : List Nat} (ha : 95 ∉ a) (hb : 95 ∉ b) (hc : 95 ∉ c) (hd : 95 ∉ d) (h : lagKey a b = lagKey c d) :
    a = c ∧ b = d := by
  have e : ∀ x y : List Nat, lagKey x y = bytes "lag_" ++ (x ++ 95 :: y) := by
    intro x y; simp [lagKey, bytes]
  rw [e, e] at h
  have h' := congrArg splitUnderscore (List.append_cancel_left h)
  rw [splitUnderscore_two a b ha, splitUnderscore_two c d hc, splitUnderscore_plain b hb, splitUnderscore_plain d hd] at h'
  simpa using h'

theorem lagKey_mem {ids : List (List Nat)} {a b : List Nat} (ha : 95 ∉ a) (hb : 95 ∉ b) (hu : ∀ id ∈ ids, 95 ∉ id)
    (h : lagKey a b ∈ bytes "t_mid" :: xcorrKeys ids) : (a, b) ∈ cyclicPairs ids := by
  unfold xcorrKeys at h
  simp only [List.cons_append, List.mem_cons, List.mem_append, List.mem_flatMap, List.not_mem_nil, or_false] at h
  rcases h with h | h | ⟨p, hp, h | h | h⟩ | h
  · simp [bytes, lagKey] at h
  · simp [bytes, lagKey] at h
  · simp [bytes, lagKey] at h
  · obtain ⟨h1, h2⟩ := mem_cyclicPairs hp
    obtain ⟨rfl, rfl⟩ := lagKey_inj ha hb (hu _ h1) (hu _ h2) h
    exact hp
  · simp [bytes, lagKey] at h
  · simp [bytes, lagKey] at h

/-- C52 is violated: if the sensor `b` of three is missing in the first window, and all sensors are there in the later ones (at least
one), the inversion raises an exception, whatever the lags and positions: it orders the sensors by their first appearance, `a`, `c`, `b`,
and looks for a lag between `c` and `b`, where the table has one between `b` and `c`. -/
theorem C52_violated_gap (f : List WTrace → Except Exc (List (List Nat × Rat))) (st : List WTrace) (win overlap : Rat) (s0 s1 : Rat)
    (rest : List Rat) (r : WTable Rat) (hs : windowStarts st win overlap = .ok (s0 :: s1 :: rest))
    (hr : applyWindows f st win overlap = .ok r) (a b c : List Nat) (hab : a ≠ b) (hac : a ≠ c) (hbc : b ≠ c)
    (hnd1 : (xcorrKeys [a, c]).Nodup) (hnd2 : (xcorrKeys [a, b, c]).Nodup)
    (hu : 95 ∉ a ∧ 95 ∉ b ∧ 95 ∉ c)
    (hrms : isInfix (bytes "rms") a = false ∧ isInfix (bytes "rms") b = false ∧ isInfix (bytes "rms") c = false)
    (h0 : ∀ w, f (windowData st win s0) = .ok w → w.map Prod.fst = xcorrKeys [a, c])
    (h1 : ∀ s ∈ s1 :: rest, ∀ w, f (windowData st win s) = .ok w → w.map Prod.fst = xcorrKeys [a, b, c])
    (locs : List LocRow) : invertForSlowness (lagTableOf r) locs = .error .other := by
  have hu1 : ∀ id ∈ [a, c], 95 ∉ id := by
    intro id hid
    simp only [List.mem_cons, List.not_mem_nil, or_false] at hid
    rcases hid with rfl | rfl
    · exact hu.1
    · exact hu.2.2
  have hu2 : ∀ id ∈ [a, b, c], 95 ∉ id := by
    intro id hid
    simp only [List.mem_cons, List.not_mem_nil, or_false] at hid
    rcases hid with rfl | rfl | rfl
    · exact hu.1
    · exact hu.2.1
    · exact hu.2.2
  have hr1 : ∀ id ∈ [a, c], isInfix (bytes "rms") id = false := by
    intro id hid
    simp only [List.mem_cons, List.not_mem_nil, or_false] at hid
    rcases hid with rfl | rfl
    · exact hrms.1
    · exact hrms.2.2
  have hr2 : ∀ id ∈ [a, b, c], isInfix (bytes "rms") id = false := by
    intro id hid
    simp only [List.mem_cons, List.not_mem_nil, or_false] at hid
    rcases hid with rfl | rfl | rfl
    · exact hrms.1
    · exact hrms.2.1
    · exact hrms.2.2
  have hf1 := rms_columns [a, c] hr1
  have hf2 := rms_columns [a, b, c] hr2
  set K1 := bytes "t_mid" :: xcorrKeys [a, c] with hK1
  have htm : ∀ ids, bytes "t_mid" ∉ xcorrKeys ids := by
    intro ids h
    unfold xcorrKeys at h
    simp only [List.cons_append, List.mem_cons, List.mem_append, List.mem_flatMap, List.not_mem_nil, or_false] at h
    rcases h with h | ⟨p, -, h | h | h⟩ | h
    · exact absurd h (by decide)
    · simp [bytes] at h
    · simp [bytes, lagKey] at h
    · simp [bytes] at h
    · exact absurd h (by decide)
  -- the names of the columns
  have hkeys : r.map Prod.fst = K1 ++ (xcorrKeys [a, b, c]).filter fun k => decide (k ∉ K1) := by
    unfold applyWindows at hr
    rw [hs] at hr
    dsimp only at hr
    rw [windowLoop] at hr
    cases hw0 : f (windowData st win s0) with
    | error e => rw [hw0] at hr; simp at hr
    | ok w0 =>
      rw [hw0] at hr
      dsimp only at hr
      have hk0 := h0 w0 hw0
      have e0 : (putWindow 0 [(bytes "t_mid", ([] : List (WCell Rat)))] w0 (s0 + win / 2)).map Prod.fst = K1 := by
        rw [putWindow_keys _ _ _ _ (hk0 ▸ hnd1), hk0]
        have hfl : (xcorrKeys [a, c]).filter (fun k => decide (k ∉ [(bytes "t_mid", ([] : List (WCell Rat)))].map Prod.fst)) =
            xcorrKeys [a, c] := by
          rw [List.filter_eq_self]
          intro k hk
          have : k ≠ bytes "t_mid" := fun e => htm _ (e ▸ hk)
          simp [this]
        rw [hfl]
        rfl
      rw [windowLoop] at hr
      cases hw1 : f (windowData st win s1) with
      | error e => rw [hw1] at hr; simp at hr
      | ok w1 =>
        rw [hw1] at hr
        dsimp only at hr
        have hk1 := h1 s1 List.mem_cons_self w1 hw1
        have e1 : (putWindow 1 (putWindow 0 [(bytes "t_mid", ([] : List (WCell Rat)))] w0 (s0 + win / 2)) w1 (s1 + win / 2)).map Prod.fst =
            K1 ++ (xcorrKeys [a, b, c]).filter fun k => decide (k ∉ K1) := by
          rw [putWindow_keys _ _ _ _ (hk1 ▸ hnd2), hk1, e0]
        rw [← e1]
        apply windowLoop_stable f st win rest _ _ r _ hr
        intro s hs' w hw
        have hk := h1 s (List.mem_cons_of_mem _ hs') w hw
        rw [hk, e1]
        refine ⟨hnd2, ?_⟩
        intro k hk'
        by_cases hin : k ∈ K1
        · exact List.mem_append_left _ hin
        · exact List.mem_append_right _ (List.mem_filter.mpr ⟨hk', by simpa using hin⟩)
  -- the sensors, in the order of their first appearance
  have hids : shortIds ((lagTableOf r).map Prod.fst) = some [a, c, b] := by
    apply shortIds_eq
    · rw [lagTableOf_keys, hkeys, List.filter_append, hf1]
      have hcomm : ((xcorrKeys [a, b, c]).filter fun k => decide (k ∉ K1)).filter (isInfix (bytes "rms")) =
          ((bytes "t_mid" :: xcorrKeys [a, b, c]).filter (isInfix (bytes "rms"))).filter fun k => decide (k ∉ K1) := by
        have : isInfix (bytes "rms") (bytes "t_mid") = false := by decide
        rw [List.filter_cons, this, List.filter_filter, if_neg (by simp), List.filter_filter]
        apply List.filter_congr
        intro k _
        exact Bool.and_comm _ _
      have hmem : ∀ x, isInfix (bytes "rms") (bytes "rms_" ++ x) = true := by
        intro x
        rw [isInfix_iff_infix]
        exact ⟨[], 95 :: x, rfl⟩
      have hK : ∀ x, bytes "rms_" ++ x ∈ K1 ↔ x = a ∨ x = c := by
        intro x
        have : bytes "rms_" ++ x ∈ K1 ↔ bytes "rms_" ++ x ∈ K1.filter (isInfix (bytes "rms")) := by
          rw [List.mem_filter]
          exact ⟨fun h => ⟨h, hmem x⟩, fun h => h.1⟩
        rw [this, hf1]
        simp
      rw [hcomm, hf2]
      simp only [List.map_cons, List.map_nil, List.filter_cons, List.filter_nil, hK]
      simp [hac, hbc, Ne.symm hab]
    · intro id hid
      simp only [List.mem_cons, List.not_mem_nil, or_false] at hid
      rcases hid with rfl | rfl | rfl
      · exact hu.1
      · exact hu.2.2
      · exact hu.2.1
  -- the lag between `c` and `b` is not there
  have hno : (lagTableOf r).lookup (lagKey c b) = none := by
    rw [lookup_none_iff, lagTableOf_keys, hkeys]
    intro h
    rcases List.mem_append.mp h with h | h
    · have := lagKey_mem hu.2.2 hu.2.1 hu1 h
      simp [cyclicPairs, hbc, Ne.symm hab, Ne.symm hac] at this
    · have := lagKey_mem hu.2.2 hu.2.1 hu2 (List.mem_cons_of_mem _ (List.mem_filter.mp h).1)
      simp [cyclicPairs, Ne.symm hab, Ne.symm hac, Ne.symm hbc] at this
  unfold invertForSlowness
  rw [hids]
  dsimp only
  have hpairs : cyclicPairs [a, c, b] = [(a, c), (c, b), (b, a)] := rfl
  cases hg : (cyclicPairs [a, c, b]).mapM (designRow locs) with
  | none => rfl
  | some g =>
    cases g with
    | nil => rfl
    | cons g0 g =>
      dsimp only
      split
      · rfl
      · rw [hpairs]
        have hlen : ∃ n, ((lagTableOf r).headD ([], [])).2.length = n + 1 := by
          obtain ⟨ws, -, -, hmid, -⟩ := C51_aligned_partial f st win overlap _ r hs (by
            intro s hs' w hw
            rcases List.mem_cons.mp hs' with rfl | hs'
            · rw [h0 w hw]; exact ⟨hnd1, htm _⟩
            · rw [h1 s hs' w hw]; exact ⟨hnd2, htm _⟩) hr
          cases hrr : r with
          | nil => rw [hrr] at hkeys; simp [hK1] at hkeys
          | cons p t =>
            rw [hrr, List.map_cons, hK1, List.cons_append, List.cons.injEq] at hkeys
            unfold WTable.col at hmid
            rw [hrr, List.lookup_cons, beq_iff_eq.mpr hkeys.1.symm] at hmid
            simp only [Option.some.injEq] at hmid
            exact ⟨rest.length + 1, by simp [lagTableOf, hmid]⟩
        obtain ⟨n, hn⟩ := hlen
        have hw0 : lagsAt (lagTableOf r) ([(a, c), (c, b), (b, a)].map fun p => lagKey p.1 p.2).dropLast 0 = none := by
          unfold lagsAt
          simp only [List.map_cons, List.map_nil, List.dropLast_cons_cons, List.dropLast_singleton, List.mapM_cons, hno, Option.bind_none]
          cases (List.lookup (lagKey a c) (lagTableOf r)).bind fun col => col[0]? <;> rfl
        rw [hn, List.range_succ_eq_map, List.mapM_cons, hw0]
        rfl

/-! ### Example: three sensors, a wave; and the same with the second sensor missing from the first window -/

def demoIds : List (List Nat) := [bytes "X.A.", bytes "X.B.", bytes "X.C."]

def demoPos (id : List Nat) : Rat × Rat :=
  if id = bytes "X.A." then (0, 0) else if id = bytes "X.B." then (3, 1) else (1, 2)

def demoLocs : List LocRow :=
  [⟨bytes "X", bytes "C", [], 1, 2⟩, ⟨bytes "X", bytes "A", [], 0, 0⟩, ⟨bytes "X", bytes "B", [], 3, 1⟩]

/-- What the cross-correlation of a plane wave with slowness (1/5, -1/10) gives. -/
def demoXcorr (d : List WTrace) : Except Exc (List (List Nat × Rat)) :=
  .ok ((xcorrKeys (d.map WTrace.id)).map fun k => (k,
    match (cyclicPairs (d.map WTrace.id)).find? fun p => lagKey p.1 p.2 = k with
    | some p => planeLag (1 / 5, -1 / 10) (demoPos p.1) (demoPos p.2)
    | none => 0))

def demoArray : List WTrace := demoIds.map fun id => ⟨id, (List.range 13).map fun i : Nat => ((i : Rat), (i : Rat))⟩

/-- Sensor B starts at 5 s only. -/
def demoLate : List WTrace := demoIds.map fun id =>
  ⟨id, ((List.range 13).map fun i : Nat => ((i : Rat), (i : Rat))).filter fun s => decide (id ≠ bytes "X.B." ∨ 5 ≤ s.1)⟩

example : Located demoLocs demoPos demoIds := by unfold Located; decide +kernel

example : ¬ CollinearAt demoPos demoIds := by
  rintro ⟨u, v, c, huv, h⟩
  have h1 := h (bytes "X.A.") (by decide)
  have h2 := h (bytes "X.B.") (by decide)
  have h3 := h (bytes "X.C.") (by decide)
  have e1 : demoPos (bytes "X.A.") = (0, 0) := by decide
  have e2 : demoPos (bytes "X.B.") = (3, 1) := by decide
  have e3 : demoPos (bytes "X.C.") = (1, 2) := by decide
  rw [e1] at h1; rw [e2] at h2; rw [e3] at h3
  dsimp only at h1 h2 h3
  rcases huv with hu | hv
  · exact hu (by linarith)
  · exact hv (by linarith)

example : (xcorrKeys demoIds).Nodup ∧ (xcorrKeys [bytes "X.A.", bytes "X.C."]).Nodup := by decide +kernel

-- the wave is found in all four windows
example : ((applyWindows demoXcorr demoArray 5 (1 / 2)).toOption.map fun r => (invertForSlowness (lagTableOf r) demoLocs).toOption) =
    some (some [some (1 / 5, -1 / 10), some (1 / 5, -1 / 10), some (1 / 5, -1 / 10), some (1 / 5, -1 / 10)]) := by decide +kernel

-- with a sensor missing at the start, in none
example : (windowData demoLate 5 0).map WTrace.id = [bytes "X.A.", bytes "X.C."] ∧
    (windowData demoLate 5 (7 / 3)).map WTrace.id = demoIds ∧
    ((applyWindows demoXcorr demoLate 5 (1 / 2)).toOption.map fun r => (invertForSlowness (lagTableOf r) demoLocs).toOption) =
      some none := by decide +kernel

end Gemlog
