import Verif.Model.Plots
import Verif.Props.Database
import Verif.Props.Inventory
import Mathlib.Data.List.Sort

/-!
# C115: figures of amplitudes and lags

The labels in the figure of amplitudes are right exactly if the stations begin in alphabetical order. The figure of lags shows the consistent windows of three
stations, neither more nor fewer.
-/

namespace Gemlog

/-! ## Specification -/

/-- Stations begin in alphabetical order: the first row of each is behind rows of earlier stations only. -/
def BeginInOrder (stations : List (List Nat)) : Prop :=
  ∀ pre x post, stations = pre ++ x :: post → x ∈ pre ∨ ∀ y ∈ pre, y < x

/-- The amplitudes of a station, in the order of the database. -/
def amplitudesOf (db : List DbRow) (sta : List Nat) : List (Int × Rat) :=
  (db.filter fun r => decide (r.station = sta)).map fun r => (r.t1, r.amp)

/-! ## Lemmas -/

theorem uniqueGo_sorted : ∀ (l seen : List (List Nat)), seen.Pairwise (· < ·) →
    ((uniqueGo seen l).Pairwise (· < ·) ↔ ∀ pre x post, l = pre ++ x :: post → x ∈ seen ++ pre ∨ ∀ y ∈ seen ++ pre, y < x)
  | [], seen, h => by simp [uniqueGo, h]
  | a :: l, seen, h => by
    rw [uniqueGo]
    split
    · rename_i hc
      rw [uniqueGo_sorted l seen h]
      constructor
      · intro hl pre x post he
        cases pre with
        | nil =>
          simp only [List.nil_append, List.cons.injEq] at he
          exact Or.inl (by rw [← he.1]; simpa using hc)
        | cons b pre =>
          simp only [List.cons_append, List.cons.injEq] at he
          obtain ⟨rfl, he⟩ := he
          rcases hl pre x post he with h1 | h1
          · exact Or.inl (by rcases List.mem_append.mp h1 with h2 | h2 <;> simp [h2])
          · refine Or.inr fun y hy => ?_
            simp only [List.mem_append, List.mem_cons] at hy
            rcases hy with hy | rfl | hy
            · exact h1 y (by simp [hy])
            · exact h1 y (by simp [hc])
            · exact h1 y (by simp [hy])
      · intro hl pre x post he
        rcases hl (a :: pre) x post (by rw [he]; rfl) with h1 | h1
        · refine Or.inl ?_
          simp only [List.mem_append, List.mem_cons] at h1 ⊢
          rcases h1 with h1 | rfl | h1
          · exact Or.inl h1
          · exact Or.inl hc
          · exact Or.inr h1
        · refine Or.inr fun y hy => h1 y ?_
          rcases List.mem_append.mp hy with h2 | h2 <;> simp [h2]
    · rename_i hc
      have happ : ∀ pre : List (List Nat), seen ++ a :: pre = seen ++ [a] ++ pre := by simp
      constructor
      · intro hp
        have hsa : (seen ++ [a]).Pairwise (· < ·) := hp.sublist (uniqueGo_prefix l (seen ++ [a])).sublist
        have hl := (uniqueGo_sorted l (seen ++ [a]) hsa).mp hp
        intro pre x post he
        cases pre with
        | nil =>
          simp only [List.nil_append, List.cons.injEq] at he
          rw [← he.1, List.append_nil]
          exact Or.inr fun y hy => (List.pairwise_append.mp hsa).2.2 y hy a (by simp)
        | cons b pre =>
          simp only [List.cons_append, List.cons.injEq] at he
          obtain ⟨rfl, he⟩ := he
          rw [happ]
          exact hl pre x post he
      · intro hl
        have hsa : (seen ++ [a]).Pairwise (· < ·) := by
          rw [List.pairwise_append]
          refine ⟨h, by simp, fun y hy z hz => ?_⟩
          rw [List.mem_singleton.mp hz]
          rcases hl [] a l rfl with h1 | h1
          · exact absurd (by simpa using h1) hc
          · exact h1 y (by simpa using hy)
        refine (uniqueGo_sorted l (seen ++ [a]) hsa).mpr fun pre x post he => ?_
        rw [← happ]
        exact hl (a :: pre) x post (by rw [he]; rfl)
where
  uniqueGo_prefix : ∀ (l seen : List (List Nat)), seen <+: uniqueGo seen l
    | [], seen => by simp [uniqueGo]
    | x :: l, seen => by
      rw [uniqueGo]
      split
      · exact uniqueGo_prefix l seen
      · exact (List.prefix_append _ _).trans (uniqueGo_prefix l (seen ++ [x]))

theorem uniqueIn_sorted (l : List (List Nat)) : (uniqueIn l).Pairwise (· < ·) ↔ BeginInOrder l := by
  unfold uniqueIn BeginInOrder
  rw [uniqueGo_sorted l [] List.Pairwise.nil]
  simp

theorem sortNames_eq_iff {l : List (List Nat)} (h : l.Nodup) : sortNames l = l ↔ l.Pairwise (· < ·) := by
  constructor
  · intro he
    have h1 : l.Pairwise (· ≤ ·) := by rw [← he]; exact sortNames_sorted l
    exact (h1.and h).imp fun ⟨hle, hne⟩ => lt_of_le_of_ne hle hne
  · intro hs
    exact List.Perm.eq_of_pairwise (fun a b _ _ h1 h2 => le_antisymm h1 h2) (sortNames_sorted l) (hs.imp le_of_lt) (sortNames_perm l)

/-! ## The property -/

/-- **C115, amplitudes.** If the stations begin in alphabetical order, the figure shows for each station of the database its amplitudes with its name, and
nothing else; what is printed belongs to the station named in any case. -/
theorem C115_amplitudes (log10 : Rat → Rat) (quantile : List Rat → Rat → Rat) (db : List DbRow) :
    (BeginInOrder (db.map DbRow.station) → ∀ sta pts, (sta, pts) ∈ (plotAmp log10 quantile db).lines ↔
      sta ∈ db.map DbRow.station ∧ pts = (amplitudesOf db sta).map fun p => (p.1, log10 p.2)) ∧
    ∀ sta q, (sta, q) ∈ (plotAmp log10 quantile db).printed ↔
      sta ∈ db.map DbRow.station ∧ q = quantile ((amplitudesOf db sta).map Prod.snd) (1 / 4) := by
  have hpts : ∀ sta, ampPoints log10 db sta = (amplitudesOf db sta).map fun p => (p.1, log10 p.2) := by
    intro sta
    unfold ampPoints amplitudesOf
    rw [List.map_map]
    rfl
  have hamp : ∀ sta, (db.filter fun r => decide (r.station = sta)).map DbRow.amp = (amplitudesOf db sta).map Prod.snd := by
    intro sta
    unfold amplitudesOf
    rw [List.map_map]
    rfl
  constructor
  · intro ho sta pts
    have he := (sortNames_eq_iff (uniqueIn_nodup _)).mpr ((uniqueIn_sorted _).mpr ho)
    unfold plotAmp
    simp only [he]
    have hz : (uniqueIn (db.map DbRow.station)).zip ((uniqueIn (db.map DbRow.station)).map (ampPoints log10 db)) =
        (uniqueIn (db.map DbRow.station)).map fun s => (s, ampPoints log10 db s) := by
      generalize uniqueIn (db.map DbRow.station) = l
      induction l with
      | nil => rfl
      | cons a l ih => simp only [List.map_cons, List.zip_cons_cons, ih]
    rw [hz, List.mem_map]
    constructor
    · rintro ⟨s, hs, hp⟩
      cases hp
      exact ⟨(mem_uniqueIn _ _).mp hs, hpts _⟩
    · rintro ⟨hs, rfl⟩
      exact ⟨sta, (mem_uniqueIn _ _).mpr hs, by rw [hpts]⟩
  · intro sta q
    unfold plotAmp
    simp only [List.mem_map, Prod.mk.injEq]
    constructor
    · rintro ⟨s, hs, rfl, rfl⟩
      exact ⟨by simpa using (mem_uniqueIn _ _).mp hs, by rw [hamp]⟩
    · rintro ⟨hs, rfl⟩
      exact ⟨sta, (mem_uniqueIn _ _).mpr (by simpa using hs), rfl, by rw [hamp]⟩

/-- **C115 violated: labels.** If the stations do not begin in alphabetical order, the amplitudes of some station are shown with the name of another one. -/
theorem C115_violated_labels (log10 : Rat → Rat) (quantile : List Rat → Rat → Rat) (db : List DbRow) (h : ¬ BeginInOrder (db.map DbRow.station)) :
    ∃ a b, a ∈ db.map DbRow.station ∧ b ∈ db.map DbRow.station ∧ a ≠ b ∧
      (a, (amplitudesOf db b).map fun p => (p.1, log10 p.2)) ∈ (plotAmp log10 quantile db).lines := by
  have hne : sortNames (uniqueIn (db.map DbRow.station)) ≠ uniqueIn (db.map DbRow.station) := fun he =>
    h ((uniqueIn_sorted _).mp ((sortNames_eq_iff (uniqueIn_nodup _)).mp he))
  have hlen := (sortNames_perm (uniqueIn (db.map DbRow.station))).length_eq
  obtain ⟨i, hi1, hi2, hne⟩ : ∃ (i : Nat) (h1 : i < (sortNames (uniqueIn (db.map DbRow.station))).length) (h2 : i < (uniqueIn (db.map DbRow.station)).length),
      (sortNames (uniqueIn (db.map DbRow.station)))[i] ≠ (uniqueIn (db.map DbRow.station))[i] := by
    by_contra hc
    push Not at hc
    exact hne (List.ext_getElem hlen fun i h1 h2 => hc i h1 h2)
  refine ⟨_, _, ?_, ?_, hne, ?_⟩
  · exact (mem_uniqueIn _ _).mp ((sortNames_perm _).mem_iff.mp (List.getElem_mem hi1))
  · exact (mem_uniqueIn _ _).mp (List.getElem_mem hi2)
  · unfold plotAmp
    refine List.mem_iff_getElem.mpr ⟨i, by simp; omega, ?_⟩
    simp only [List.getElem_zip, List.getElem_map, Prod.mk.injEq, true_and]
    unfold ampPoints amplitudesOf
    rw [List.map_map]
    rfl

/-- **C115, lags.** For three or more stations: line `i` of each panel has one entry for each window, which is the lag of station `i` (shifted by `i/6`) or its
correlation coefficient if the lags of the window are consistent (or consistency is not asked for), and nothing otherwise. -/
theorem C115_lags (use : Bool) (n0 n1 : Nat) (h0 : 3 ≤ n0) (h1 : 3 ≤ n1) (ws0 ws1 : List LagWindow)
    (hw0 : ∀ w ∈ ws0, w.lags.length = n0 ∧ w.coefs.length = n0) (hw1 : ∀ w ∈ ws1, w.lags.length = n1 ∧ w.coefs.length = n1) :
    ∃ fig, plotLags use n0 n1 ws0 ws1 = .ok fig ∧
      ∀ p ∈ [(fig.lags0, fig.coefs0, ws0), (fig.lags1, fig.coefs1, ws1)], p.1.length = 3 ∧ p.2.1.length = 3 ∧ ∀ i : Nat, i < 3 →
        ∃ lags coefs, p.1[i]? = some lags ∧ p.2.1[i]? = some coefs ∧ lags.length = p.2.2.length ∧ coefs.length = p.2.2.length ∧
          ∀ (k : Nat) (w : LagWindow), p.2.2[k]? = some w →
            ((use = false ∨ w.consistency = 0) → ∃ x c, w.lags[i]? = some x ∧ w.coefs[i]? = some c ∧
              lags[k]? = some (some ((x : Rat) + i / 6)) ∧ coefs[k]? = some (some c)) ∧
            (use = true ∧ w.consistency ≠ 0 → lags[k]? = some none ∧ coefs[k]? = some none) := by
  unfold plotLags
  rw [if_neg (by omega)]
  refine ⟨_, rfl, ?_⟩
  have key : ∀ (n : Nat) (ws : List LagWindow), 3 ≤ n → (∀ w ∈ ws, w.lags.length = n ∧ w.coefs.length = n) →
      ((List.range 3).map (lagLine use ws)).length = 3 ∧ ((List.range 3).map (coefLine use ws)).length = 3 ∧ ∀ i : Nat, i < 3 →
        ∃ lags coefs, ((List.range 3).map (lagLine use ws))[i]? = some lags ∧ ((List.range 3).map (coefLine use ws))[i]? = some coefs ∧
          lags.length = ws.length ∧ coefs.length = ws.length ∧
          ∀ (k : Nat) (w : LagWindow), ws[k]? = some w →
            ((use = false ∨ w.consistency = 0) → ∃ x c, w.lags[i]? = some x ∧ w.coefs[i]? = some c ∧
              lags[k]? = some (some ((x : Rat) + i / 6)) ∧ coefs[k]? = some (some c)) ∧
            (use = true ∧ w.consistency ≠ 0 → lags[k]? = some none ∧ coefs[k]? = some none) := by
    intro n ws hn hw
    refine ⟨by simp, by simp, fun i hi => ⟨lagLine use ws i, coefLine use ws i, ?_, ?_, by simp [lagLine], by simp [coefLine], ?_⟩⟩
    · rw [List.getElem?_map, List.getElem?_range hi]; rfl
    · rw [List.getElem?_map, List.getElem?_range hi]; rfl
    · intro k w hk
      obtain ⟨l1, l2⟩ := hw w (List.mem_of_getElem? hk)
      have e1 : w.lags[i]? = some w.lags[i] := List.getElem?_eq_getElem (by omega)
      have e2 : w.coefs[i]? = some w.coefs[i] := List.getElem?_eq_getElem (by omega)
      constructor
      · intro hu
        have hs : w.shown use = true := by
          unfold LagWindow.shown
          rcases hu with hu | hu <;> simp [hu]
        refine ⟨_, _, e1, e2, ?_, ?_⟩
        · unfold lagLine; rw [List.getElem?_map, hk]; simp [hs, e1]
        · unfold coefLine; rw [List.getElem?_map, hk]; simp [hs, e2]
      · rintro ⟨hu, hc⟩
        have hs : w.shown use = false := by
          unfold LagWindow.shown
          simp [hu, hc]
        constructor
        · unfold lagLine; rw [List.getElem?_map, hk]; simp [hs]
        · unfold coefLine; rw [List.getElem?_map, hk]; simp [hs]
  intro p hp
  simp only [List.mem_cons, List.not_mem_nil, or_false] at hp
  rcases hp with rfl | rfl
  · exact key n0 ws0 h0 hw0
  · exact key n1 ws1 h1 hw1

/-- **C115 violated: other numbers of stations.** The lags of two stations cannot be shown. Of more than three, the fourth and later ones have no influence on
the figure. -/
theorem C115_violated_three :
    (∀ (use : Bool) (n0 n1 : Nat) (ws0 ws1 : List LagWindow), n0 ≤ 2 → plotLags use n0 n1 ws0 ws1 = .error .other) ∧
    ∀ (use : Bool) (n0 n1 : Nat) (ws0 ws1 : List LagWindow) (other : LagWindow → LagWindow),
      (∀ w, (other w).consistency = w.consistency ∧ (other w).lags.take 3 = w.lags.take 3 ∧ (other w).coefs.take 3 = w.coefs.take 3) →
      plotLags use n0 n1 (ws0.map other) (ws1.map other) = plotLags use n0 n1 ws0 ws1 := by
  constructor
  · intro use n0 n1 ws0 ws1 h
    unfold plotLags
    rw [if_pos (by omega)]
  · intro use n0 n1 ws0 ws1 other ho
    have take_get : ∀ {α : Type} (a b : List α) (i : Nat), i < 3 → a.take 3 = b.take 3 → a[i]? = b[i]? := by
      intro α a b i hi h
      rw [← List.getElem?_take_of_lt hi, h, List.getElem?_take_of_lt hi]
    have hl : ∀ (ws : List LagWindow) (i : Nat), i ∈ List.range 3 → lagLine use (ws.map other) i = lagLine use ws i := by
      intro ws i hi
      unfold lagLine
      rw [List.map_map]
      refine List.map_congr_left fun w _ => ?_
      have hs : (other w).shown use = w.shown use := by unfold LagWindow.shown; rw [(ho w).1]
      simp only [Function.comp]
      rw [hs, take_get _ _ i (List.mem_range.mp hi) (ho w).2.1]
    have hc : ∀ (ws : List LagWindow) (i : Nat), i ∈ List.range 3 → coefLine use (ws.map other) i = coefLine use ws i := by
      intro ws i hi
      unfold coefLine
      rw [List.map_map]
      refine List.map_congr_left fun w _ => ?_
      have hs : (other w).shown use = w.shown use := by unfold LagWindow.shown; rw [(ho w).1]
      simp only [Function.comp]
      rw [hs, take_get _ _ i (List.mem_range.mp hi) (ho w).2.2]
    unfold plotLags
    rw [List.map_congr_left (hl ws0), List.map_congr_left (hl ws1), List.map_congr_left (hc ws0), List.map_congr_left (hc ws1)]

/-! ## Examples -/

/-- Three files of two stations, in the order of their names (day, then station): station 065 is the first. -/
def demoPlotDb : List DbRow :=
  [⟨bytes "d1.065", bytes "065", [], 3, 9, -9, 0, 359999⟩, ⟨bytes "d2.061", bytes "061", [], 1, 4, -4, 360000, 719999⟩,
    ⟨bytes "d2.065", bytes "065", [], 2, 8, -8, 360000, 719999⟩]

example : ¬ BeginInOrder (demoPlotDb.map DbRow.station) := by
  intro h
  rcases h [bytes "065"] (bytes "061") [bytes "065"] rfl with h1 | h1
  · revert h1; decide +kernel
  · have := h1 (bytes "065") (by simp)
    revert this; decide +kernel

example : (plotAmp id (fun _ q => q) demoPlotDb).lines = [(bytes "061", [(0, 3), (360000, 2)]), (bytes "065", [(360000, 1)])] := by decide +kernel

example : BeginInOrder ((demoPlotDb.drop 1).map DbRow.station) := by
  rw [← uniqueIn_sorted]
  decide +kernel

example : plotLags true 3 3 [⟨0, [1, 2, -3], [1, 1 / 2, 1], 0⟩, ⟨1, [1, 2, 0], [1, 1 / 2, 1], 3⟩] [] =
    .ok ⟨[[], [], []], [[some 1, none], [some (2 + 1 / 6), none], [some (-3 + 1 / 3), none]], [[], [], []], [[some 1, none], [some (1 / 2), none], [some 1, none]]⟩ := by
  decide +kernel

end Gemlog
