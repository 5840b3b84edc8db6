import Verif.Props.GemCatDir

/-!
# C57: the data of two instruments in one file
-/

namespace Gemlog

/-- **C57 is violated by any two files of different instruments** in a folder, if all files are merged into one and no extension is given: whatever well-formed content they have, the single output, named after
the first instrument, is read as the pressures of the first instrument followed by those of the second, whatever the serial number of the second. -/
theorem C57_violated_one_file (env : CatEnv) (f g : RawText) (hf : f.Valid) (hg : g.Valid) (hvf : f.version ∈ ["0.85C", "0.9", "1.10"])
    (hvg : g.version ∈ ["0.85C", "0.9", "1.10"]) (sn : List Nat) (h1 : env.readSN f.text = some sn)
    (hlen : f.head.length + f.rest.length + g.head.length + g.rest.length + 4 ≤ 65520000) :
    ∃ out, gemCat env true [] [⟨bytes "FILE0000.001", f.text⟩, ⟨bytes "FILE0000.002", g.text⟩] = .ok [(bytes "FILE9999." ++ sn, out)] ∧
      ∀ version ∈ ["0.85C", "0.9", "1.10"], ∃ d, env.read out version = .ok d ∧
        d.data.map Prod.snd = (f.pressures ++ g.pressures).map (fun z : Int => some (z : Rat)) := by
  obtain ⟨out, ho, hr⟩ := C44_cat_all_partial env [f, g] sn ⟨f, rfl, h1⟩ (by simp [hf, hg]) (by
    intro x hx
    rcases List.mem_cons.mp hx with rfl | hx
    · exact hvf
    · rw [List.mem_singleton.mp hx]; exact hvg) (by simp; omega)
  refine ⟨out, ?_, by simpa using hr⟩
  rw [← ho]
  rfl

/-- The two files of `C57_violated` are such files. -/
example : fileA.version ∈ ["0.85C", "0.9", "1.10"] ∧ fileB.version ∈ ["0.85C", "0.9", "1.10"] ∧ twoEnv.readSN fileA.text = some (bytes "001") ∧
    twoEnv.readSN fileB.text = some (bytes "002") := by decide +kernel

end Gemlog
