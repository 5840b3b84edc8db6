import Verif.Props.Slowness
import Mathlib.Tactic.LinearCombination

/-!
# C118: the slowness is the best fit to the lags

Specification: the lagMisfit of a slowness vector is the sum of the squared differences between the measured lags of neighbouring sensors and those of a plane wave with this
slowness.
-/

namespace Gemlog

/-- The sum of the squared errors of the lags `t` of neighbouring sensors for a plane wave of slowness `s`. -/
def lagMisfit (pos : List Nat → Rat × Rat) (ids : List (List Nat)) (t : List Nat × List Nat → Rat) (s : Rat × Rat) : Rat :=
  ((ids.zip (ids.drop 1)).map fun p => (t p - planeLag s (pos p.1) (pos p.2)) ^ 2).sum

section
variable {α : Type}

theorem misfit_expand (row : α → Rat × Rat) (t : α → Rat) (s : Rat × Rat) : ∀ ps : List α,
    (ps.map fun p => (t p - (s.1 * (row p).1 + s.2 * (row p).2)) ^ 2).sum =
      (ps.map fun p => t p ^ 2).sum - 2 * s.1 * (ps.map fun p => (row p).1 * t p).sum - 2 * s.2 * (ps.map fun p => (row p).2 * t p).sum +
        s.1 ^ 2 * (ps.map fun p => (row p).1 * (row p).1).sum + 2 * s.1 * s.2 * (ps.map fun p => (row p).1 * (row p).2).sum +
        s.2 ^ 2 * (ps.map fun p => (row p).2 * (row p).2).sum
  | [] => by simp
  | p :: ps => by
    simp only [List.map_cons, List.sum_cons, misfit_expand row t s ps]
    ring

theorem cramer (A B C P Q : Rat) (h : A * C - B * B ≠ 0) :
    (C * P - B * Q) / (A * C - B * B) * A + (A * Q - B * P) / (A * C - B * B) * B = P ∧
      (C * P - B * Q) / (A * C - B * B) * B + (A * Q - B * P) / (A * C - B * B) * C = Q := by
  constructor
  · rw [div_mul_eq_mul_div, div_mul_eq_mul_div, ← add_div, div_eq_iff h]
    ring
  · rw [div_mul_eq_mul_div, div_mul_eq_mul_div, ← add_div, div_eq_iff h]
    ring

theorem normal_equations (row : α → Rat × Rat) (t : α → Rat) (ps : List α) (hdet : gramDet (ps.map row) ≠ 0) :
    (solveSlowness (ps.map row) (ps.map t)).1 * (ps.map fun p => (row p).1 * (row p).1).sum +
        (solveSlowness (ps.map row) (ps.map t)).2 * (ps.map fun p => (row p).1 * (row p).2).sum = (ps.map fun p => (row p).1 * t p).sum ∧
      (solveSlowness (ps.map row) (ps.map t)).1 * (ps.map fun p => (row p).1 * (row p).2).sum +
        (solveSlowness (ps.map row) (ps.map t)).2 * (ps.map fun p => (row p).2 * (row p).2).sum = (ps.map fun p => (row p).2 * t p).sum := by
  have hzip : (ps.map row).zip (ps.map t) = ps.map fun p => (row p, t p) := List.zip_map' ..
  unfold solveSlowness
  unfold gramDet at hdet
  rw [hzip]
  simp only [List.map_map, Function.comp_def] at hdet ⊢
  exact cramer _ _ _ _ _ hdet

theorem misfit_solve (row : α → Rat × Rat) (t : α → Rat) (ps : List α) (hdet : gramDet (ps.map row) ≠ 0) (s' : Rat × Rat)
    (hs : s' ≠ solveSlowness (ps.map row) (ps.map t)) :
    (ps.map fun p => (t p - ((solveSlowness (ps.map row) (ps.map t)).1 * (row p).1 + (solveSlowness (ps.map row) (ps.map t)).2 * (row p).2)) ^ 2).sum <
      (ps.map fun p => (t p - (s'.1 * (row p).1 + s'.2 * (row p).2)) ^ 2).sum := by
  have hform := sum_form (s'.1 - (solveSlowness (ps.map row) (ps.map t)).1) (s'.2 - (solveSlowness (ps.map row) (ps.map t)).2) (ps.map row)
  have hpos : 0 < ((ps.map row).map fun r => ((s'.1 - (solveSlowness (ps.map row) (ps.map t)).1) * r.1 + (s'.2 - (solveSlowness (ps.map row) (ps.map t)).2) * r.2) *
      ((s'.1 - (solveSlowness (ps.map row) (ps.map t)).1) * r.1 + (s'.2 - (solveSlowness (ps.map row) (ps.map t)).2) * r.2)).sum := by
    refine lt_of_le_of_ne (sum_sq_nonneg _ _) fun h0 => ?_
    have hk := sum_sq_zero _ _ h0.symm
    apply hdet
    refine gramDet_kernel _ _ _ ?_ hk
    by_contra hc
    push Not at hc
    exact hs (Prod.ext (by linarith [hc.1]) (by linarith [hc.2]))
  rw [misfit_expand, misfit_expand]
  have e := normal_equations row t ps hdet
  obtain ⟨e1, e2⟩ := e
  generalize solveSlowness (ps.map row) (ps.map t) = s at *
  rw [hform] at hpos
  simp only [List.map_map, Function.comp_def] at hpos
  rw [← e1, ← e2]
  nlinarith [hpos]

end

/-- What the inversion computes, with the lags of a window as a function. -/
theorem invert_rows (tbl : LagTable) (locs : List LocRow) (ids : List (List Nat)) (pos : List Nat → Rat × Rat) (n : Nat)
    (hkeys : (tbl.map Prod.fst).filter (isInfix (bytes "rms")) = ids.map (bytes "rms_" ++ ·)) (hu : ∀ id ∈ ids, 95 ∉ id)
    (hloc : Located locs pos ids) (hnc : ¬ CollinearAt pos ids)
    (hlen : (tbl.headD ([], [])).2.length = n)
    (hlags : ∀ p ∈ ids.zip (ids.drop 1), ∃ col, tbl.lookup (bytes "lag_" ++ p.1 ++ bytes "_" ++ p.2) = some col ∧ col.length = n) :
    ∃ res, invertForSlowness tbl locs = .ok res ∧ res.length = n ∧
      ∀ (w : Nat) (lag : List Nat × List Nat → Option Rat), w < n →
        (∀ p ∈ ids.zip (ids.drop 1), ∃ col, tbl.lookup (bytes "lag_" ++ p.1 ++ bytes "_" ++ p.2) = some col ∧ col[w]? = some (lag p)) →
        res[w]? = some (((ids.zip (ids.drop 1)).mapM lag).map (solveSlowness ((ids.zip (ids.drop 1)).map (gapRow pos)))) := by
  have hdet := gramDet_ne hnc
  have hl : ∀ w < n, ∃ l, lagsAt tbl ((ids.zip (ids.drop 1)).map fun p => lagKey p.1 p.2) w = some l ∧
      ∀ lag : List Nat × List Nat → Option Rat, (∀ p ∈ ids.zip (ids.drop 1), ∃ col, tbl.lookup (bytes "lag_" ++ p.1 ++ bytes "_" ++ p.2) = some col ∧
          col[w]? = some (lag p)) → l = (ids.zip (ids.drop 1)).mapM lag := by
    intro w hw
    unfold lagsAt
    have hex : ∀ k ∈ (ids.zip (ids.drop 1)).map fun p => lagKey p.1 p.2,
        ((tbl.lookup k).bind fun col => col[w]?) = some (((tbl.lookup k).bind fun col => col[w]?).getD none) := by
      intro k hk
      obtain ⟨p, hp, rfl⟩ := List.mem_map.mp hk
      obtain ⟨col, h1, h2⟩ := hlags p hp
      unfold lagKey
      rw [h1, Option.bind_some, List.getElem?_eq_getElem (by omega)]
      rfl
    rw [mapM_some_map _ _ _ hex, Option.map_some]
    refine ⟨_, rfl, ?_⟩
    intro lag hs
    have : (((ids.zip (ids.drop 1)).map fun p => lagKey p.1 p.2).map fun k => ((tbl.lookup k).bind fun col => col[w]?).getD none) =
        (ids.zip (ids.drop 1)).map lag := by
      rw [List.map_map]
      apply List.map_congr_left
      intro p hp
      obtain ⟨col, h1, h2⟩ := hs p hp
      simp only [Function.comp_apply, lagKey]
      rw [h1, Option.bind_some, h2]
      rfl
    rw [this, List.mapM_map]
    rfl
  have hrows : (List.range n).mapM (lagsAt tbl ((ids.zip (ids.drop 1)).map fun p => lagKey p.1 p.2)) =
      some ((List.range n).map fun w => (lagsAt tbl ((ids.zip (ids.drop 1)).map fun p => lagKey p.1 p.2) w).getD none) := by
    apply mapM_some_map
    intro w hw
    obtain ⟨l, h1, -⟩ := hl w (List.mem_range.mp hw)
    rw [h1]
    rfl
  have hne : ids ≠ [] := by
    rintro rfl
    exact hnc ⟨1, 0, 0, Or.inl one_ne_zero, by simp⟩
  have hinv : invertForSlowness tbl locs = .ok
      (((List.range n).map fun w => (lagsAt tbl ((ids.zip (ids.drop 1)).map fun p => lagKey p.1 p.2) w).getD none).map
        fun o => o.map (solveSlowness ((ids.zip (ids.drop 1)).map (gapRow pos)))) := by
    unfold invertForSlowness
    rw [shortIds_eq hkeys hu]
    dsimp only
    rw [design_eq hloc]
    have hcons : (cyclicPairs ids).map (gapRow pos) ≠ [] := by
      intro h
      have := cyclicPairs_fst ids
      rw [List.map_eq_nil_iff.mp h] at this
      exact hne this.symm
    have hdrop : ((cyclicPairs ids).map (gapRow pos)).dropLast = (ids.zip (ids.drop 1)).map (gapRow pos) := by
      rw [← List.map_dropLast, cyclicPairs_dropLast]
    have hdrop2 : ((cyclicPairs ids).map fun p => lagKey p.1 p.2).dropLast = (ids.zip (ids.drop 1)).map fun p => lagKey p.1 p.2 := by
      rw [← List.map_dropLast, cyclicPairs_dropLast]
    cases hg : (cyclicPairs ids).map (gapRow pos) with
    | nil => exact absurd hg hcons
    | cons g0 g =>
      dsimp only
      rw [hg] at hdrop
      rw [hdrop, if_neg hdet, hdrop2, hlen, hrows]
  refine ⟨_, hinv, by simp, ?_⟩
  intro w lag hw hs
  obtain ⟨l, h1, h2⟩ := hl w hw
  rw [List.getElem?_map, List.getElem?_map, List.getElem?_range hw, Option.map_some, Option.map_some, h1, h2 lag hs]
  rfl

theorem mapM_none_of_mem {α β : Type} (f : α → Option β) : ∀ l : List α, (∃ x ∈ l, f x = none) → l.mapM f = none
  | [], h => by simp at h
  | a :: l, h => by
    rw [List.mapM_cons]
    cases hf : f a with
    | none => rfl
    | some b =>
      obtain ⟨x, hx, hn⟩ := h
      rcases List.mem_cons.mp hx with rfl | hx
      · rw [hf] at hn
        cases hn
      · rw [mapM_none_of_mem f l ⟨x, hx, hn⟩]
        rfl

/-- C118. Take any array of sensors that are not on one line, and any table of lags. The inversion returns one slowness vector for each window: the one with the least misfit to the
lags of neighbouring sensors, and no other vector has the same misfit. In a window with a missing lag the slowness is missing. -/
theorem C118_least_squares (tbl : LagTable) (locs : List LocRow) (ids : List (List Nat)) (pos : List Nat → Rat × Rat) (n : Nat)
    (hkeys : (tbl.map Prod.fst).filter (isInfix (bytes "rms")) = ids.map (bytes "rms_" ++ ·)) (hu : ∀ id ∈ ids, 95 ∉ id)
    (hloc : Located locs pos ids) (hnc : ¬ CollinearAt pos ids)
    (hlen : (tbl.headD ([], [])).2.length = n)
    (hlags : ∀ p ∈ ids.zip (ids.drop 1), ∃ col, tbl.lookup (bytes "lag_" ++ p.1 ++ bytes "_" ++ p.2) = some col ∧ col.length = n) :
    ∃ res, invertForSlowness tbl locs = .ok res ∧ res.length = n ∧
      ∀ (w : Nat) (lag : List Nat × List Nat → Option Rat), w < n →
        (∀ p ∈ ids.zip (ids.drop 1), ∃ col, tbl.lookup (bytes "lag_" ++ p.1 ++ bytes "_" ++ p.2) = some col ∧ col[w]? = some (lag p)) →
        ((∃ p ∈ ids.zip (ids.drop 1), lag p = none) → res[w]? = some none) ∧
        (∀ t, (∀ p ∈ ids.zip (ids.drop 1), lag p = some (t p)) →
          ∃ s, res[w]? = some (some s) ∧ ∀ s', s' ≠ s → lagMisfit pos ids t s < lagMisfit pos ids t s') := by
  obtain ⟨res, hres, hn, h⟩ := invert_rows tbl locs ids pos n hkeys hu hloc hnc hlen hlags
  refine ⟨res, hres, hn, fun w lag hw hlag => ⟨fun hex => ?_, fun t ht => ?_⟩⟩
  · rw [h w lag hw hlag, mapM_none_of_mem _ _ hex]
    rfl
  · refine ⟨_, by rw [h w lag hw hlag, mapM_some_map lag t _ ht, Option.map_some], fun s' hs' => ?_⟩
    exact misfit_solve (gapRow pos) t _ (gramDet_ne hnc) s' hs'

/-- Only the distances between the sensors count: with the whole array moved by any vector the results are the same. -/
theorem C118_moved (tbl : LagTable) (locs locs' : List LocRow) (ids : List (List Nat)) (pos pos' : List Nat → Rat × Rat) (n : Nat) (c : Rat × Rat)
    (hkeys : (tbl.map Prod.fst).filter (isInfix (bytes "rms")) = ids.map (bytes "rms_" ++ ·)) (hu : ∀ id ∈ ids, 95 ∉ id)
    (hloc : Located locs pos ids) (hloc' : Located locs' pos' ids) (hmove : ∀ id ∈ ids, pos' id = ((pos id).1 + c.1, (pos id).2 + c.2))
    (hnc : ¬ CollinearAt pos ids) (hlen : (tbl.headD ([], [])).2.length = n)
    (hlags : ∀ p ∈ ids.zip (ids.drop 1), ∃ col, tbl.lookup (bytes "lag_" ++ p.1 ++ bytes "_" ++ p.2) = some col ∧ col.length = n) :
    invertForSlowness tbl locs' = invertForSlowness tbl locs := by
  have hnc' : ¬ CollinearAt pos' ids := by
    rintro ⟨u, v, d, huv, h⟩
    refine hnc ⟨u, v, d - u * c.1 - v * c.2, huv, fun id hid => ?_⟩
    have := h id hid
    rw [hmove id hid] at this
    dsimp only at this
    linarith
  obtain ⟨r, hr, hn, h⟩ := invert_rows tbl locs ids pos n hkeys hu hloc hnc hlen hlags
  obtain ⟨r', hr', hn', h'⟩ := invert_rows tbl locs' ids pos' n hkeys hu hloc' hnc' hlen hlags
  rw [hr, hr']
  congr 1
  apply List.ext_getElem?
  intro w
  by_cases hw : w < n
  · have hlag : ∀ p ∈ ids.zip (ids.drop 1), ∃ col, tbl.lookup (bytes "lag_" ++ p.1 ++ bytes "_" ++ p.2) = some col ∧
        col[w]? = some (((tbl.lookup (bytes "lag_" ++ p.1 ++ bytes "_" ++ p.2)).bind fun col => col[w]?).getD none) := by
      intro p hp
      obtain ⟨col, h1, h2⟩ := hlags p hp
      refine ⟨col, h1, ?_⟩
      rw [h1, Option.bind_some, List.getElem?_eq_getElem (by omega)]
      rfl
    rw [h w (fun p => ((tbl.lookup (bytes "lag_" ++ p.1 ++ bytes "_" ++ p.2)).bind fun col => col[w]?).getD none) hw hlag,
      h' w (fun p => ((tbl.lookup (bytes "lag_" ++ p.1 ++ bytes "_" ++ p.2)).bind fun col => col[w]?).getD none) hw hlag]
    have : (ids.zip (ids.drop 1)).map (gapRow pos') = (ids.zip (ids.drop 1)).map (gapRow pos) := by
      apply List.map_congr_left
      intro p hp
      have hp' : p ∈ cyclicPairs ids := List.mem_of_mem_dropLast (by rw [cyclicPairs_dropLast]; exact hp)
      obtain ⟨h1, h2⟩ := mem_cyclicPairs hp'
      unfold gapRow
      rw [hmove _ h1, hmove _ h2]
      exact Prod.ext (by dsimp only; ring) (by dsimp only; ring)
    rw [this]
  · rw [List.getElem?_eq_none (by omega), List.getElem?_eq_none (by omega)]

/-- With three sensors the lags of two pairs are fitted exactly, so the third is not used at all. -/
theorem three_exact {pos : List Nat → Rat × Rat} {a b c : List Nat} (hnc : ¬ CollinearAt pos [a, b, c]) (t : List Nat × List Nat → Rat) {s : Rat × Rat}
    (hs : ∀ s', s' ≠ s → lagMisfit pos [a, b, c] t s < lagMisfit pos [a, b, c] t s') :
    planeLag s (pos a) (pos b) = t (a, b) ∧ planeLag s (pos b) (pos c) = t (b, c) := by
  have hd : gramDet [gapRow pos (a, b), gapRow pos (b, c)] ≠ 0 := gramDet_ne hnc
  have hd2 : (gapRow pos (a, b)).1 * (gapRow pos (b, c)).2 - (gapRow pos (a, b)).2 * (gapRow pos (b, c)).1 ≠ 0 := by
    intro h
    apply hd
    simp only [gramDet, List.map_cons, List.map_nil, List.sum_cons, List.sum_nil]
    linear_combination ((gapRow pos (a, b)).1 * (gapRow pos (b, c)).2 - (gapRow pos (a, b)).2 * (gapRow pos (b, c)).1) * h
  -- the vector that fits both lags
  obtain ⟨s0, h1, h2⟩ : ∃ s0 : Rat × Rat, planeLag s0 (pos a) (pos b) = t (a, b) ∧ planeLag s0 (pos b) (pos c) = t (b, c) := by
    refine ⟨((t (a, b) * (gapRow pos (b, c)).2 - t (b, c) * (gapRow pos (a, b)).2) /
      ((gapRow pos (a, b)).1 * (gapRow pos (b, c)).2 - (gapRow pos (a, b)).2 * (gapRow pos (b, c)).1),
      (t (b, c) * (gapRow pos (a, b)).1 - t (a, b) * (gapRow pos (b, c)).1) /
      ((gapRow pos (a, b)).1 * (gapRow pos (b, c)).2 - (gapRow pos (a, b)).2 * (gapRow pos (b, c)).1)), ?_, ?_⟩
    · show _ * (gapRow pos (a, b)).1 + _ * (gapRow pos (a, b)).2 = _
      rw [div_mul_eq_mul_div, div_mul_eq_mul_div, ← add_div, div_eq_iff hd2]
      ring
    · show _ * (gapRow pos (b, c)).1 + _ * (gapRow pos (b, c)).2 = _
      rw [div_mul_eq_mul_div, div_mul_eq_mul_div, ← add_div, div_eq_iff hd2]
      ring
  have hz : lagMisfit pos [a, b, c] t s0 = 0 := by
    simp [lagMisfit, h1, h2]
  have : s0 = s := by
    by_contra hne
    have h3 := hs s0 hne
    rw [hz] at h3
    have h4 : 0 ≤ lagMisfit pos [a, b, c] t s := by
      simp only [lagMisfit, List.drop_succ_cons, List.drop_zero, List.zip_cons_cons, List.zip_nil_right, List.map_cons, List.map_nil, List.sum_cons, List.sum_nil]
      positivity
    linarith
  rw [← this]
  exact ⟨h1, h2⟩

/-- Where the property fails: the lag between the last sensor and the first is not used. Take any three sensors that are not on one line, and the same three lags in two tables
that differ only in the sensor they begin with. If the lags do not sum to zero, as those of a plane wave do, the two results differ. -/
theorem C118_violated_order (tbl tbl' : LagTable) (locs : List LocRow) (a b c : List Nat) (pos : List Nat → Rat × Rat) (n w : Nat) (hw : w < n)
    (hkeys : (tbl.map Prod.fst).filter (isInfix (bytes "rms")) = [a, b, c].map (bytes "rms_" ++ ·))
    (hkeys' : (tbl'.map Prod.fst).filter (isInfix (bytes "rms")) = [b, c, a].map (bytes "rms_" ++ ·))
    (hu : ∀ id ∈ [a, b, c], 95 ∉ id) (hloc : Located locs pos [a, b, c]) (hnc : ¬ CollinearAt pos [a, b, c])
    (hlen : (tbl.headD ([], [])).2.length = n) (hlen' : (tbl'.headD ([], [])).2.length = n)
    (t : List Nat × List Nat → Nat → Rat)
    (hlags : ∀ p ∈ [(a, b), (b, c), (c, a)], tbl.lookup (bytes "lag_" ++ p.1 ++ bytes "_" ++ p.2) = some ((List.range n).map fun i => some (t p i)))
    (hlags' : ∀ p ∈ [(a, b), (b, c), (c, a)], tbl'.lookup (bytes "lag_" ++ p.1 ++ bytes "_" ++ p.2) = some ((List.range n).map fun i => some (t p i)))
    (hsum : t (a, b) w + t (b, c) w + t (c, a) w ≠ 0) :
    ∃ res res' s s', invertForSlowness tbl locs = .ok res ∧ invertForSlowness tbl' locs = .ok res' ∧
      res[w]? = some (some s) ∧ res'[w]? = some (some s') ∧ s ≠ s' := by
  have hcol : ∀ p, ((List.range n).map fun i => some (t p i))[w]? = some (some (t p w)) := by
    intro p
    rw [List.getElem?_map, List.getElem?_range hw]
    rfl
  have hloc' : Located locs pos [b, c, a] := fun id hid => hloc id (by simp only [List.mem_cons, List.not_mem_nil, or_false] at hid ⊢; tauto)
  have hnc' : ¬ CollinearAt pos [b, c, a] := by
    rintro ⟨u, v, d, huv, h⟩
    exact hnc ⟨u, v, d, huv, fun id hid => h id (by simp only [List.mem_cons, List.not_mem_nil, or_false] at hid ⊢; tauto)⟩
  obtain ⟨res, hr, -, h⟩ := C118_least_squares tbl locs [a, b, c] pos n hkeys hu hloc hnc hlen
    (fun p hp => ⟨_, hlags p (by simp at hp ⊢; tauto), by simp⟩)
  obtain ⟨res', hr', -, h'⟩ := C118_least_squares tbl' locs [b, c, a] pos n hkeys'
    (fun id hid => hu id (by simp only [List.mem_cons, List.not_mem_nil, or_false] at hid ⊢; tauto)) hloc' hnc' hlen'
    (fun p hp => ⟨_, hlags' p (by simp at hp ⊢; tauto), by simp⟩)
  obtain ⟨s, hs, hs1⟩ := (h w (fun p => some (t p w)) hw (fun p hp => ⟨_, hlags p (by simp at hp ⊢; tauto), hcol p⟩)).2 (fun p => t p w) (fun _ _ => rfl)
  obtain ⟨s', hs', hs1'⟩ := (h' w (fun p => some (t p w)) hw (fun p hp => ⟨_, hlags' p (by simp at hp ⊢; tauto), hcol p⟩)).2 (fun p => t p w) (fun _ _ => rfl)
  refine ⟨res, res', s, s', hr, hr', hs, hs', ?_⟩
  rintro rfl
  obtain ⟨e1, e2⟩ := three_exact hnc _ hs1
  obtain ⟨-, e4⟩ := three_exact hnc' _ hs1'
  apply hsum
  rw [← e1, ← e2, ← e4]
  unfold planeLag
  ring

/-! ### Example: three sensors, a window with lags that are not those of a plane wave and one without a lag -/

/-- The lags of the three pairs, in two orders of the columns. -/
def demoTable118 (ids : List (List Nat)) : LagTable :=
  ids.map (fun id => (bytes "rms_" ++ id, [some 1, some 1])) ++
    [(lagKey (bytes "X.A.") (bytes "X.B."), [some 1, none]), (lagKey (bytes "X.B.") (bytes "X.C."), [some 2, some 2]),
      (lagKey (bytes "X.C.") (bytes "X.A."), [some (-2), some 0])]

def demoRotated : List (List Nat) := [bytes "X.B.", bytes "X.C.", bytes "X.A."]

example : ((demoTable118 demoIds).map Prod.fst).filter (isInfix (bytes "rms")) = demoIds.map (bytes "rms_" ++ ·) ∧
    ((demoTable118 demoRotated).map Prod.fst).filter (isInfix (bytes "rms")) = demoRotated.map (bytes "rms_" ++ ·) ∧ (∀ id ∈ demoIds, 95 ∉ id) ∧
    ((demoTable118 demoIds).headD ([], [])).2.length = 2 := by decide +kernel

example : (invertForSlowness (demoTable118 demoIds) demoLocs).toOption = some [some (1 / 5, -8 / 5), none] ∧
    (invertForSlowness (demoTable118 demoRotated) demoLocs).toOption = some [some (2 / 5, -6 / 5), some (4 / 5, -2 / 5)] := by decide +kernel

example : (1 : Rat) + 2 + (-2) ≠ 0 := by decide +kernel

end Gemlog
