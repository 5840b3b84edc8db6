import Verif.Props.FillExact

/-! # C88: a gap of exactly the limit can be filled -/

namespace Gemlog

/-- **C88, violated (a gap that is not short is filled).** If a run is a single sample, the gap before it is shorter than the limit `g` and the gap after it
is exactly `g` long, the longer gap is filled as well, although gaps of `g` are to be left: the two gaps are filled together. -/
theorem C88_violated_limit {spline : List (Int × Int) → Int → Rat} {g : Int} {st : List Trace} {x y z : Trace}
    (hne : ∀ tr ∈ st, tr.data ≠ []) (hc : Consistent (samples st)) (hA : Separate [x, y, z])
    (hs : ∀ q, q ∈ samples [x, y, z] ↔ q ∈ samples st) (h1 : y.start - x.stop < g) (h2 : z.start - y.stop = g)
    (h3 : y.data.length = 1) :
    ∃ out, interpolateStream spline g st = .ok out ∧ Separate out ∧ ∀ t, y.stop < t → t < z.start → ∃ v, (t, v) ∈ samples out := by
  have hr := remerge_spec hne hc
  have e : remerge st = [x, y, z] := apart_unique hr.1 hA fun q => (hr.2 q).trans (hs q).symm
  have hx := hA.1 x (by simp)
  have hy := hA.1 y (by simp)
  have hz := hA.1 z (by simp)
  have sy := stop_of_ne hy
  have hxy := apart_get_lt hA (i := 0) (j := 1) (a := x) (b := y) rfl rfl (by omega)
  have hyz := apart_get_lt hA (i := 1) (j := 2) (a := y) (b := z) rfl rfl (by omega)
  have hcs := increasing_consistent (apart_increasing hA)
  obtain ⟨vx, hvx⟩ := stop_mem (p := [x, y, z]) (tr := x) (by simp) hx
  obtain ⟨vz, hvz⟩ := mem_samples_start (p := [x, y, z]) (tr := z) (by simp) hz
  obtain ⟨m, m1, m2, ⟨vs, m3⟩, ve, m4⟩ := cut_merge (lo := x.stop - g) (hi := y.start + g) hcs hvx (by omega) (by omega)
  have rx := at_some_range ((m2 _ _).mpr ⟨hvx, by omega, by omega⟩)
  have rz := at_some_range ((m2 _ _).mpr ⟨hvz, by omega, by omega⟩)
  have hgapm : m.at (x.stop + 1) = none := by
    cases hv : m.at (x.stop + 1) with
    | none => rfl
    | some v =>
      exfalso
      rcases apart_between hA (i := 0) (a := x) (b := y) rfl rfl ((m2 _ _).mp hv).1 with h | h <;> simp only at h <;> omega
  have hall : m.data.all Option.isSome = false := by
    rw [Bool.eq_false_iff]
    intro h'
    exact at_none_iff_data.mp h' (x.stop + 1) (by omega) (by omega) hgapm
  have step0 : interpStep spline g [x, y, z] [x, y, z] 0 = .ok ([x, y, z] ++ [fillMasked spline m]) := by
    unfold interpStep
    simp only [List.getElem?_cons_zero, List.getElem?_cons_succ]
    rw [if_pos h1, m1]
    dsimp only
    rw [hall]
    rfl
  have step1 : interpStep spline g [x, y, z] ([x, y, z] ++ [fillMasked spline m]) 1 = .ok ([x, y, z] ++ [fillMasked spline m]) := by
    unfold interpStep
    simp only [List.getElem?_cons_zero, List.getElem?_cons_succ]
    rw [if_neg (by omega)]
  have hfs := fillMasked_samples spline m
  have hmem : ∀ q, q ∈ samples ([x, y, z] ++ [fillMasked spline m]) ↔ q ∈ samples [x, y, z] ∨
      q ∈ stamps (fillMasked spline m).start (fillMasked spline m).data := by
    intro q
    rw [samples_append, List.mem_append, samples_cons (fillMasked spline m), samples_nil, List.append_nil]
  have hcons : Consistent (samples ([x, y, z] ++ [fillMasked spline m])) := by
    intro t v w hv hw
    have split : ∀ {v}, (t, v) ∈ samples ([x, y, z] ++ [fillMasked spline m]) → (t, v) ∈ samples [x, y, z] ∨
        (m.start ≤ t ∧ t ≤ m.stop ∧ m.at t = none ∧ v = pyTrunc (spline (goodPoints 0 m.data) (t - m.start))) := by
      intro v hv
      rcases (hmem _).mp hv with hv | hv
      · exact .inl hv
      · rcases (hfs t v).mp hv with hv | hv
        · exact .inl ((m2 _ _).mp hv).1
        · exact .inr hv
    have hin : ∀ {v}, (t, v) ∈ samples [x, y, z] → m.start ≤ t → t ≤ m.stop → m.at t ≠ none := by
      intro v hv t1 t2 hn
      by_cases k1 : x.stop - g ≤ t
      · by_cases k2 : t ≤ y.start + g
        · rw [(m2 t v).mpr ⟨hv, k1, k2⟩] at hn
          simp at hn
        · have := ((m2 _ _).mp m4).2.2
          omega
      · have := ((m2 _ _).mp m3).2.1
        omega
    rcases split hv with hv | hv <;> rcases split hw with hw | hw
    · exact hcs t v w hv hw
    · exact absurd hw.2.2.1 (hin hv hw.1 hw.2.1)
    · exact absurd hv.2.2.1 (hin hw hv.1 hv.2.1)
    · rw [hv.2.2.2, hw.2.2.2]
  have hr' := remerge_spec (l := [x, y, z] ++ [fillMasked spline m]) (by
    intro tr htr
    rcases List.mem_append.mp htr with h | h
    · exact hA.1 tr h
    · rw [List.mem_singleton.mp h]
      intro he
      have := (hfs x.stop vx).mpr (Or.inl ((m2 _ _).mpr ⟨hvx, by omega, by omega⟩))
      rw [he] at this
      simp [stamps] at this) hcons
  refine ⟨remerge ([x, y, z] ++ [fillMasked spline m]), ?_, hr'.1, ?_⟩
  · have hl : (List.range 2).foldlM (interpStep spline g [x, y, z]) [x, y, z] = .ok ([x, y, z] ++ [fillMasked spline m]) := by
      have a1 : (List.range 1).foldlM (interpStep spline g [x, y, z]) [x, y, z] = .ok ([x, y, z] ++ [fillMasked spline m]) := by
        rw [foldlM_range_succ (n := 0) (st := [x, y, z]) rfl]
        exact step0
      rw [foldlM_range_succ a1]
      exact step1
    unfold interpolateStream
    dsimp only
    rw [e, if_neg (by simp), show [x, y, z].length - 1 = 2 from rfl, hl]
  · intro t t1 t2
    cases hv : m.at t with
    | some v => exact ⟨v, (hr'.2 _).mpr ((hmem _).mpr (Or.inr ((hfs t v).mpr (Or.inl hv))))⟩
    | none => exact ⟨_, (hr'.2 _).mpr ((hmem _).mpr (Or.inr ((hfs t _).mpr (Or.inr ⟨by omega, by omega, hv, rfl⟩))))⟩

/-- A single sample, three hundredths after the run before and five before the run after it; the limit is five. Without the single sample's neighbour
before it, the gap of five is left. -/
example : Separate [⟨0, [1, 2]⟩, ⟨4, [3]⟩, ⟨9, [4, 5]⟩] ∧
    (interpolateStream demoLine 5 [⟨0, [1, 2]⟩, ⟨4, [3]⟩, ⟨9, [4, 5]⟩]).toOption.map (List.map fun tr => (tr.start, tr.stop)) = some [(0, 10)] ∧
    (interpolateStream demoLine 5 [⟨4, [3]⟩, ⟨9, [4, 5]⟩]).toOption.map (List.map fun tr => (tr.start, tr.stop)) = some [(4, 4), (9, 10)] := by
  refine ⟨⟨by simp, by simp [Trace.stop]⟩, by decide +kernel, by decide +kernel⟩

end Gemlog
