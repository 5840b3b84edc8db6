import Verif.Model.DriftPlot
import Verif.Props.Segments

/-!
# C117: the plot of clock drift shows the clocks used for the conversion
-/

namespace Gemlog

/-! ## Specification -/

/-- The time of a count according to the clocks in the header: that of the last file whose range has it. -/
def ClockTime (header : List HeaderRow) (x : Rat) (t : Rat) : Prop := ∃ row, LastContaining header x row ∧ t = timeOf row.info x

/-- A count that is in no file's range. -/
def NotInFiles (header : List HeaderRow) (x : Rat) : Prop := ∀ row ∈ header, ¬ Contains row x

/-- A curve over the counts `xs` with the heights `h t x`, where `t` is the time of the count `x`, and nothing where there is no time. -/
def Curve (header : List HeaderRow) (h : Rat → Rat → Rat) (xs : List Rat) (curve : List (Rat × Option Rat)) : Prop :=
  curve.map Prod.fst = xs ∧ ∀ p ∈ curve, (NotInFiles header p.1 ∧ p.2 = none) ∨ ∃ t, ClockTime header p.1 t ∧ p.2 = some (h t p.1)

/-! ## Proofs -/

theorem clockTime_cases (header : List HeaderRow) (x : Rat) :
    (NotInFiles header x ∧ applySegments header x = none) ∨ ∃ t, ClockTime header x t ∧ applySegments header x = some t := by
  rcases lastContaining_or x header with ⟨row, hr⟩ | hn
  · exact .inr ⟨_, ⟨row, hr, rfl⟩, (C24_last_containing header x).1 row hr⟩
  · exact .inl ⟨hn, (C24_last_containing header x).2.mpr hn⟩

theorem clockTime_eq {header : List HeaderRow} {x t : Rat} (h : ClockTime header x t) : applySegments header x = some t := by
  obtain ⟨row, hr, rfl⟩ := h
  exact (C24_last_containing header x).1 row hr

theorem drift_curve (header : List HeaderRow) (y0 : Rat) (xs : List Rat) :
    Curve header (fun t x => t - 1024 / 1000000 * x - y0) xs (xs.map fun x => (x, driftAt header y0 x)) := by
  refine ⟨by rw [List.map_map]; exact List.map_id' xs, ?_⟩
  intro p hp
  obtain ⟨x, -, rfl⟩ := List.mem_map.mp hp
  rcases clockTime_cases header x with ⟨h1, h2⟩ | ⟨t, h1, h2⟩
  · exact .inl ⟨h1, by simp [driftAt, h2]⟩
  · refine .inr ⟨t, h1, ?_⟩
    simp only [driftAt, h2, Option.map_some, noDrift, Option.some.injEq]
    ring

theorem detrended_curve (header : List HeaderRow) (y0 s : Rat) (xs : List Rat) :
    Curve header (fun t x => t - 1024 / 1000000 * x - y0 - s * x) xs (xs.map fun x => (x, detrendedAt header y0 (some s) x)) := by
  refine ⟨by rw [List.map_map]; exact List.map_id' xs, ?_⟩
  intro p hp
  obtain ⟨x, -, rfl⟩ := List.mem_map.mp hp
  rcases clockTime_cases header x with ⟨h1, h2⟩ | ⟨t, h1, h2⟩
  · exact .inl ⟨h1, by simp [detrendedAt, driftAt, h2]⟩
  · refine .inr ⟨t, h1, ?_⟩
    simp only [detrendedAt, driftAt, h2, Option.map_some, noDrift, Option.some.injEq]
    ring

theorem plotDriftSeveral_ok {F : Type} {ops : FileOps F} {files : List F} {plot : DriftPlot} (h : plotDriftSeveral ops files = .ok plot) :
    ∃ out g rest last, readSeveral ops files "0.9" true = .ok out ∧ out.gps = g :: rest ∧ out.gps.getLast? = some last ∧
      plot = ⟨(out.data.map Prod.fst).map fun x => (x, driftAt out.header g.t x), (out.gps.map fun f => f.msPPS).map fun x => (x, driftAt out.header g.t x),
        (out.data.map Prod.fst).map fun x => (x, detrendedAt out.header g.t (driftSlope out.header g.t g.msPPS last.msPPS) x),
        (out.gps.map fun f => f.msPPS).map fun x => (x, detrendedAt out.header g.t (driftSlope out.header g.t g.msPPS last.msPPS) x)⟩ := by
  unfold plotDriftSeveral at h
  cases hr : readSeveral ops files "0.9" true with
  | error e => simp [hr, Except.bind] at h
  | ok out =>
    simp only [hr, Except.bind] at h
    unfold plotDrift at h
    cases hg : out.gps with
    | nil => simp [hg] at h
    | cons g rest =>
      simp only [hg, Except.ok.injEq] at h
      obtain ⟨last, hl⟩ : ∃ last, (g :: rest).getLast? = some last := ⟨_, List.getLast?_eq_some_getLast (by simp)⟩
      refine ⟨out, g, rest, last, rfl, hg, by rw [hg]; exact hl, ?_⟩
      rw [← h, hg, List.getLast?_map, hl]
      rfl

/-- **C117, the upper curves.** The plot of the drift of any files has a point for each sample of the files that could be read, in their order, and one for each of
their fixes: at its count, and at the difference between its time, according to the clock that conversion uses, and the nominal time since the first fix. Counts that are in no
file have no point. -/
theorem C117_upper {F : Type} (ops : FileOps F) (files : List F) (plot : DriftPlot) (h : plotDriftSeveral ops files = .ok plot) :
    ∃ out g hist, readSeveral ops files "0.9" true = .ok out ∧ out.gps.head? = some g ∧ hist.map Prod.fst = files ∧
      Curve out.header (fun t x => t - 1024 / 1000000 * x - g.t) (((accepted hist).map fun L => L.data.map Prod.fst).flatten) plot.upperData ∧
      Curve out.header (fun t x => t - 1024 / 1000000 * x - g.t) (((accepted hist).map fun L => L.gps.map fun f => f.msPPS).flatten) plot.upperFixes := by
  obtain ⟨out, g, rest, last, h1, h2, h3, rfl⟩ := plotDriftSeveral_ok h
  obtain ⟨hist, k1, -, k3, k4, -, -, -⟩ := C15_used_or_reported ops true "0.9" files out h1
  refine ⟨out, g, hist, h1, by rw [h2]; rfl, k1, ?_, ?_⟩
  · have := drift_curve out.header g.t (out.data.map Prod.fst)
    rwa [show ((accepted hist).map fun L => L.data.map Prod.fst).flatten = out.data.map Prod.fst by
      rw [k3, List.map_flatten, List.map_map]; rfl]
  · have := drift_curve out.header g.t (out.gps.map fun f => f.msPPS)
    rwa [show ((accepted hist).map fun L => L.gps.map fun f => f.msPPS).flatten = out.gps.map fun f => f.msPPS by
      rw [k4, List.map_flatten, List.map_map]; rfl]

/-- **C117, the lower curves.** If the first and the last fix are in the ranges of files, at different counts, the lower curves are the upper ones without the straight
line through those of the two fixes: these two are at the same height. -/
theorem C117_lower {F : Type} (ops : FileOps F) (files : List F) (plot : DriftPlot) (h : plotDriftSeveral ops files = .ok plot)
    (out : Several F) (hout : readSeveral ops files "0.9" true = .ok out) (g last : Fix) (hg : out.gps.head? = some g) (hl : out.gps.getLast? = some last)
    (ta tb : Rat) (ha : ClockTime out.header g.msPPS ta) (hb : ClockTime out.header last.msPPS tb) (hne : g.msPPS ≠ last.msPPS) :
    ∃ s, tb - 1024 / 1000000 * last.msPPS - g.t - s * last.msPPS = ta - 1024 / 1000000 * g.msPPS - g.t - s * g.msPPS ∧
      Curve out.header (fun t x => t - 1024 / 1000000 * x - g.t - s * x) (out.data.map Prod.fst) plot.lowerData ∧
      Curve out.header (fun t x => t - 1024 / 1000000 * x - g.t - s * x) (out.gps.map fun f => f.msPPS) plot.lowerFixes := by
  obtain ⟨out', g', rest, last', h1, h2, h3, rfl⟩ := plotDriftSeveral_ok h
  obtain rfl : out = out' := by rw [hout] at h1; cases h1; rfl
  obtain rfl : g = g' := by rw [h2] at hg; cases hg; rfl
  obtain rfl : last = last' := by rw [hl] at h3; cases h3; rfl
  have hd : last.msPPS - g.msPPS ≠ 0 := sub_ne_zero.mpr (Ne.symm hne)
  have hs : driftSlope out.header g.t g.msPPS last.msPPS =
      some ((tb - noDrift last.msPPS - g.t - (ta - noDrift g.msPPS - g.t)) / (last.msPPS - g.msPPS)) := by
    simp only [driftSlope, driftAt, clockTime_eq ha, clockTime_eq hb, Option.map_some, if_neg hd]
  rw [hs]
  refine ⟨_, ?_, detrended_curve _ _ _ _, detrended_curve _ _ _ _⟩
  unfold noDrift
  field_simp
  ring

/-- **C117, a steady clock.** If all times are those of one clock with a constant rate, the lower curves are level. -/
theorem C117_level {F : Type} (ops : FileOps F) (files : List F) (plot : DriftPlot) (h : plotDriftSeveral ops files = .ok plot)
    (out : Several F) (hout : readSeveral ops files "0.9" true = .ok out) (g last : Fix) (hg : out.gps.head? = some g) (hl : out.gps.getLast? = some last)
    (a b : Rat) (hclock : ∀ x t, ClockTime out.header x t → t = a + b * x)
    (ha : ¬ NotInFiles out.header g.msPPS) (hb : ¬ NotInFiles out.header last.msPPS) (hne : g.msPPS ≠ last.msPPS) :
    ∀ p ∈ plot.lowerData ++ plot.lowerFixes, NotInFiles out.header p.1 ∧ p.2 = none ∨ ¬ NotInFiles out.header p.1 ∧ p.2 = some (a - g.t) := by
  have hin : ∀ x, ¬ NotInFiles out.header x → ∃ t, ClockTime out.header x t := by
    intro x hx
    rcases clockTime_cases out.header x with ⟨h1, -⟩ | ⟨t, h1, -⟩
    · exact absurd h1 hx
    · exact ⟨t, h1⟩
  obtain ⟨ta, hta⟩ := hin _ ha
  obtain ⟨tb, htb⟩ := hin _ hb
  obtain ⟨s, hs, c1, c2⟩ := C117_lower ops files plot h out hout g last hg hl ta tb hta htb hne
  rw [hclock _ _ hta, hclock _ _ htb] at hs
  have hsv : s = b - 1024 / 1000000 := by
    have hd : last.msPPS - g.msPPS ≠ 0 := sub_ne_zero.mpr (Ne.symm hne)
    have : (s - (b - 1024 / 1000000)) * (last.msPPS - g.msPPS) = 0 := by linear_combination -hs
    rcases mul_eq_zero.mp this with h | h
    · linarith
    · exact absurd h hd
  have : ∀ p : Rat × Option Rat, ((NotInFiles out.header p.1 ∧ p.2 = none) ∨ ∃ t, ClockTime out.header p.1 t ∧ p.2 = some (t - 1024 / 1000000 * p.1 - g.t - s * p.1)) →
      NotInFiles out.header p.1 ∧ p.2 = none ∨ ¬ NotInFiles out.header p.1 ∧ p.2 = some (a - g.t) := by
    rintro p (h | ⟨t, h1, h2⟩)
    · exact .inl h
    · refine .inr ⟨?_, ?_⟩
      · intro ho
        obtain ⟨row, ⟨x, y, e, hc, -⟩, -⟩ := h1
        exact ho row (by rw [e]; simp) hc
      · rw [h2, hclock _ _ h1, hsv]
        congr 1
        ring
  intro p hp
  rcases List.mem_append.mp hp with hp | hp
  · exact this p (c1.2 p hp)
  · exact this p (c2.2 p hp)

/-- **C117 is violated** by a fix after the last sample or before the first one: if the first or the last fix of all is in no file's range, or if there is only one, nothing at all
is drawn in the lower half. -/
theorem C117_violated_outside {F : Type} (ops : FileOps F) (files : List F) (plot : DriftPlot) (h : plotDriftSeveral ops files = .ok plot)
    (out : Several F) (hout : readSeveral ops files "0.9" true = .ok out) (g last : Fix) (hg : out.gps.head? = some g) (hl : out.gps.getLast? = some last)
    (hrange : NotInFiles out.header g.msPPS ∨ NotInFiles out.header last.msPPS ∨ g.msPPS = last.msPPS) :
    ∀ p ∈ plot.lowerData ++ plot.lowerFixes, p.2 = none := by
  obtain ⟨out', g', rest, last', h1, h2, h3, rfl⟩ := plotDriftSeveral_ok h
  obtain rfl : out = out' := by rw [hout] at h1; cases h1; rfl
  obtain rfl : g = g' := by rw [h2] at hg; cases hg; rfl
  obtain rfl : last = last' := by rw [hl] at h3; cases h3; rfl
  have hs : driftSlope out.header g.t g.msPPS last.msPPS = none := by
    unfold driftSlope
    rcases hrange with h | h | h
    · rw [show driftAt out.header g.t g.msPPS = none by simp [driftAt, (C24_last_containing _ _).2.mpr h]]
      cases driftAt out.header g.t last.msPPS <;> rfl
    · rw [show driftAt out.header g.t last.msPPS = none by simp [driftAt, (C24_last_containing _ _).2.mpr h]]
    · rw [h, sub_self]
      cases driftAt out.header g.t last.msPPS <;> simp
  rw [hs]
  intro p hp
  have : ∀ x, detrendedAt out.header g.t none x = none := by
    intro x
    unfold detrendedAt
    cases driftAt out.header g.t x <;> rfl
  rcases List.mem_append.mp hp with hp | hp <;>
  · obtain ⟨x, -, rfl⟩ := List.mem_map.mp hp
    exact this x

/-- The plot is made unless no file with a fix could be read (or on an interrupt). -/
theorem C117_made {F : Type} (ops : FileOps F) (files : List F) (out : Several F) (hout : readSeveral ops files "0.9" true = .ok out) :
    (∃ plot, plotDriftSeveral ops files = .ok plot) ↔ out.gps ≠ [] := by
  unfold plotDriftSeveral plotDrift
  simp only [hout, Except.bind]
  cases out.gps with
  | nil => simp
  | cons g rest => simp

/-! ## Instances -/

/-- A fix at a count. -/
def driftFix (ms t : Rat) : Fix := ⟨⟨ms, none, none, none, none, none, none, none, none, none⟩, t⟩

/-- Files that are read as they are, all with the clock `100 + 0.001025 x`. -/
def driftOps : FileOps FileData :=
  ⟨fun L _ _ _ => .ok L, fun L _ _ => .ok ⟨none, none, (L.data.head?.map Prod.fst).getD 0, (L.data.getLast?.map Prod.fst).getD 0, 0, 0, 1025 / 1000000, 100, 2, none, 2⟩,
    fun _ => .ok "077"⟩

/-- Two files; the second one has a fix after its last sample. -/
def driftFiles : List FileData :=
  [⟨[(10, some 1), (20, some 2), (30, some 3)], [], [driftFix 12 (100 + 1025 * 12 / 1000000), driftFix 25 (100 + 1025 * 25 / 1000000)]⟩,
   ⟨[(40, some 1), (50, some 2)], [], [driftFix 45 (100 + 1025 * 45 / 1000000), driftFix 52 (100 + 1025 * 52 / 1000000)]⟩]

/-- With the first file only, the lower curves are there, and level. -/
example : (plotDriftSeveral driftOps (driftFiles.take 1)).toOption.map (fun p => (p.upperData, p.lowerData, p.lowerFixes)) =
    some ([(10, some (-123 / 10000 + 1 / 100000)), (20, some (-123 / 10000 + 2 / 100000)), (30, some (-123 / 10000 + 3 / 100000))],
      [(10, some (-123 / 10000)), (20, some (-123 / 10000)), (30, some (-123 / 10000))], [(12, some (-123 / 10000)), (25, some (-123 / 10000))]) := by decide +kernel

/-- The hypotheses of `C117_lower` and `C117_level` hold for it. -/
example : ∃ out g last, readSeveral driftOps (driftFiles.take 1) "0.9" true = .ok out ∧ out.gps.head? = some g ∧ out.gps.getLast? = some last ∧
    (∀ x t, ClockTime out.header x t → t = 100 + 1025 / 1000000 * x) ∧ ¬ NotInFiles out.header g.msPPS ∧ ¬ NotInFiles out.header last.msPPS ∧ g.msPPS ≠ last.msPPS := by
  have e : (readSeveral driftOps (driftFiles.take 1) "0.9" true).toOption.map (fun out => (out.header, out.gps)) =
      some ([⟨⟨none, none, 10, 30, 0, 0, 1025 / 1000000, 100, 2, none, 2⟩, 3, "077"⟩],
        [driftFix 12 (100 + 1025 * 12 / 1000000), driftFix 25 (100 + 1025 * 25 / 1000000)]) := by decide +kernel
  cases hr : readSeveral driftOps (driftFiles.take 1) "0.9" true with
  | error x => simp [hr, Except.toOption] at e
  | ok out =>
    simp only [hr, Except.toOption, Option.map_some, Option.some.injEq, Prod.mk.injEq] at e
    obtain ⟨e1, e2⟩ := e
    refine ⟨out, driftFix 12 (100 + 1025 * 12 / 1000000), driftFix 25 (100 + 1025 * 25 / 1000000), rfl, by rw [e2]; rfl, by rw [e2]; rfl, ?_, ?_, ?_, by decide +kernel⟩
    · rintro x t ⟨row, ⟨a, b, hr, -, -⟩, rfl⟩
      have hm : row ∈ out.header := by rw [hr]; simp
      rw [e1, List.mem_singleton] at hm
      subst hm
      simp [timeOf]
    · intro h
      rw [e1] at h
      exact h _ (List.mem_singleton.mpr rfl) ⟨by decide +kernel, by decide +kernel⟩
    · intro h
      rw [e1] at h
      exact h _ (List.mem_singleton.mpr rfl) ⟨by decide +kernel, by decide +kernel⟩

/-- With both nothing is drawn below. -/
example : (plotDriftSeveral driftOps driftFiles).toOption.map (fun p => p.lowerData) =
    some [(10, none), (20, none), (30, none), (40, none), (50, none)] := by decide +kernel

end Gemlog
