import Verif.Props.GemCatDir

/-! # C45: exactly which formats can be appended -/

namespace Gemlog

/-- **C45, exactly.** Merge well-formed files of any of the four differenced formats into one (`cat_all`), the first of which has not the format 0.91. The merge succeeds if and only if
none of the others has the format 0.91. (So all formats but this one can be appended, in any mixture.) -/
theorem C45_exact (env : CatEnv) (f : RawText) (l : List RawText) (sn : List Nat) (hsn : env.readSN f.text = some sn)
    (hv : ∀ g ∈ f :: l, g.Valid) (hf : f.version ∈ ["0.85C", "0.9", "1.10"]) (hver : ∀ g ∈ l, g.version ∈ ["0.85C", "0.9", "0.91", "1.10"])
    (hlen : ((f :: l).map fun f => f.head.length + f.rest.length + 2).sum ≤ 65520000) :
    (∃ outs, gemCatFiles env true ((f :: l).map RawText.text) = .ok outs) ↔ ∀ g ∈ l, g.version ≠ "0.91" := by
  constructor
  · rintro ⟨outs, h⟩ g hg hc
    obtain ⟨x, y, rfl⟩ := List.append_of_mem hg
    obtain ⟨r, ht⟩ : ∃ r, g.text = bytes "#GemCSV0.91" ++ 10 :: r := by
      refine ⟨(g.head.map (· ++ [10])).flatten ++ lineD g.t g.first ++ (g.rest.map RawLine.text).flatten, ?_⟩
      unfold RawText.text
      rw [hc, show bytes "#GemCSV0.91" = bytes "#GemCSV" ++ bytes "0.91" from by decide +kernel]
      simp
    have := C45_violated_cat_all env ((f :: x).map RawText.text) (y.map RawText.text) r (by simp) outs
    rw [← ht] at this
    exact this (by simpa using h)
  · intro h
    obtain ⟨out, ho, -⟩ := C44_cat_all_partial env (f :: l) sn ⟨f, rfl, hsn⟩ hv (by
      intro g hg
      rcases List.mem_cons.mp hg with rfl | hg
      · exact hf
      · have h1 := hver g hg
        have h2 := h g hg
        simp only [List.mem_cons, List.not_mem_nil, or_false] at h1 ⊢
        tauto) hlen
    exact ⟨_, ho⟩

/-- The file `fileB` and the same with the version 0.91 behind `fileA`. -/
example : fileA.version = "0.9" ∧ fileB.version = "1.10" ∧ (gemCatFiles demoCatEnv true [fileA.text, fileB.text]).toOption.isSome = true ∧
    (gemCatFiles demoCatEnv true [fileA.text, ({ fileB with version := "0.91" } : RawText).text]).toOption.isSome = false := by
  refine ⟨rfl, rfl, by decide +kernel, by decide +kernel⟩

end Gemlog
