import Verif.Props.OneFormat
import Verif.Props.Transcoded
import Verif.Model.Whole

/-!
# C80: transcoded files behind an original
-/

namespace Gemlog

/-- Specification: `text'` is what the transcoder makes of the valid raw file `text`, which the fast reader can read. -/
def TranscodedCopy (d : RawDisk) (rg : Bool) (text text' : List Nat) : Prop :=
  ∃ version hdr src, version ∈ ["0.85C", "0.9", "0.91"] ∧ (∀ b ∈ hdr, b ≠ 10) ∧ hdr.length ≤ 240 ∧ (∀ s ∈ src, SrcLine.Valid s) ∧
    text = rawText hdr src ∧ transcode version (rawLines hdr src) = some text' ∧
    ∀ offset, ∃ D, readSingle d.emptyRaises ⟨(readWithCython d.buf0 d.buf1 rg (some text)).map cythonTable, .error .other, .error .other⟩ offset rg "0.9" = .ok D

/-- **C80, transcoded files behind an original.** `read_gem` refuses transcoded files only at the beginning of a selection (`C80_violated_read_gem`). If the first file is an original, any of
the others may be replaced by transcoded copies, with the same names: the result is the same. -/
theorem C80_behind_original (d : RawDisk) (content' : Entry → List Nat) (dir : List Entry) (SN : List Nat) (nums : List Int) (rg : Bool) (first : Entry)
    (rest : List Entry) (v : String) (hsel : findFiles dir SN nums = first :: rest) (hfirst : content' first = d.content first)
    (hv : formatVersion (d.content first) = some v) (hv4 : v ∈ ["0.85C", "0.9", "0.91", "1.10"])
    (hrest : ∀ e ∈ rest, content' e = d.content e ∨ TranscodedCopy d rg (d.content e) (content' e)) :
    readGem { d with content := content' }.env dir SN nums rg = readGem d.env dir SN nums rg := by
  have hread : ∀ e ∈ first :: rest, ∀ start, ({ d with content := content' } : RawDisk).readSingle e start rg "0.9" = d.readSingle e start rg "0.9" := by
    intro e he start
    have hsame : content' e = d.content e →
        ({ d with content := content' } : RawDisk).readSingle e start rg "0.9" = d.readSingle e start rg "0.9" := by
      intro h
      unfold RawDisk.readSingle
      simp only
      rw [h]
    rcases List.mem_cons.mp he with rfl | he
    · exact hsame hfirst
    · rcases hrest e he with h | ⟨version, hdr, src, h1, h2, h3, h4, h5, h6, h7⟩
      · exact hsame h
      · obtain ⟨out, k1, k2⟩ := C80_read_single version h1 hdr h2 h3 src h4
        rw [h6, Option.some.injEq] at k1
        obtain ⟨D, hD⟩ := h7 start
        rw [h5] at hD
        obtain ⟨m1, m2⟩ := k2 _ _ _ _ _ d.buf0 d.buf1 _ hD (d.pandas e rg) (d.old e rg) (d.pandas e rg) (d.old e rg)
        unfold RawDisk.readSingle
        simp only
        rw [h5, k1, m1, m2]
  have hs : severalVersion v = some "0.9" := by unfold severalVersion; rw [if_pos hv4]
  have f1 : firstReadable d.env (first :: rest) = some (first :: rest, v, first) :=
    (firstReadable_some _ _ _ _ _).mpr ⟨[], rfl, by simp, rfl, hv⟩
  have f2 : firstReadable ({ d with content := content' } : RawDisk).env (first :: rest) = some (first :: rest, v, first) :=
    (firstReadable_some _ _ _ _ _).mpr ⟨[], rfl, by simp, rfl, by show formatVersion (content' first) = some v; rw [hfirst]; exact hv⟩
  have hsev : readSeveral ({ d with content := content' } : RawDisk).env.ops (first :: rest) "0.9" rg = readSeveral d.env.ops (first :: rest) "0.9" rg := by
    apply severalLoop_congr
    intro e he start
    have hr : readVersioned ({ d with content := content' } : RawDisk).env.ops rg "0.9" e start = readVersioned d.env.ops rg "0.9" e start := by
      unfold readVersioned
      rw [if_pos (by decide), if_pos (by decide)]
      exact hread e he start
    unfold readOne
    rw [hr]
    rfl
  unfold readGem
  rw [hsel]
  simp only
  unfold readFilesAs
  rw [f1, f2]
  simp only
  rw [hs]
  simp only
  rw [hsev]
  rfl

/-- A file with samples, a metadata line and a fix, its transcoded copy, and an original in front of it. -/
example (d : RawDisk) (h0 : d.buf0 = []) (h1 : d.buf1 = []) :
    TranscodedCopy d false
      (rawText (bytes "0.91") [.other (bytes "S,012"), .sample 100 3, .other (bytes "M,100,3.5,20.1,0.5,0.4,10,60,0,0,0,50,500"),
        .other (bytes "G,110.5,70,2020,1,2,3,4,5.0,43.5,-116.2"), .sample 110 (-2), .sample 120 20])
      (bytes "#GemCSV1.1\n#adcMSSAMP\nS,012\nD100,3\nM,100,3.5,20.1,0.5,0.4,10,60,0,0,0,50,500\nG,110.5,70,2020,1,2,3,4,5.0,43.5,-116.2\nmk\nD120,20\n") ∧
    findFiles [⟨bytes "FILE0001.012", 500, .str (bytes "012")⟩, ⟨bytes "FILE0002.012", 500, .str (bytes "012")⟩] (bytes "012") [1, 2]
      = [⟨bytes "FILE0001.012", 500, .str (bytes "012")⟩, ⟨bytes "FILE0002.012", 500, .str (bytes "012")⟩] ∧
    formatVersion (rawText (bytes "0.91") [.sample 100 3]) = some "0.91" := by
  refine ⟨⟨"0.91", bytes "0.91", _, by decide, by decide +kernel, by decide +kernel, ?_, rfl, by decide +kernel, ?_⟩, by decide +kernel, by decide +kernel⟩
  · intro s hs
    simp only [List.mem_cons, List.not_mem_nil, or_false] at hs
    rcases hs with h | h | h | h | h | h <;> subst h <;> simp only [SrcLine.Valid] <;> decide +kernel
  · intro offset
    rw [h0, h1]
    have hrows : (readWithCython [] [] false (some (rawText (bytes "0.91") [.other (bytes "S,012"), .sample 100 3,
        .other (bytes "M,100,3.5,20.1,0.5,0.4,10,60,0,0,0,50,500"), .other (bytes "G,110.5,70,2020,1,2,3,4,5.0,43.5,-116.2"), .sample 110 (-2),
        .sample 120 20]))).toOption = some [⟨.D, 100, [3, 0, 0, 0, 0, 0, 0, 0, 0, 0, 0]⟩,
          ⟨.M, 100, [7 / 2, 201 / 10, 1 / 2, 2 / 5, 10, 60, 0, 0, 0, 50, 500]⟩, ⟨.G, 221 / 2, [70, 2020, 1, 2, 3, 4, 5, 87 / 2, -581 / 5, 0, 0]⟩,
          ⟨.D, 110, [-2, 0, 0, 0, 0, 0, 0, 0, 0, 0, 0]⟩, ⟨.D, 120, [20, 0, 0, 0, 0, 0, 0, 0, 0, 0, 0]⟩] := by
      decide +kernel
    revert hrows
    generalize readWithCython [] [] false _ = r
    intro hrows
    cases r with
    | error x => cases hrows
    | ok rows =>
      obtain rfl := Option.some.inj hrows
      obtain ⟨a, b, c, x, y, hms⟩ : ∃ a b c x y, correctedMillis 8192 offset [100, 100, 221 / 2, 110, 120] = some [a, b, c, x, y] :=
        ⟨_, _, _, _, _, rfl⟩
      have hms' : correctedMillis 8192 offset ((cythonTable [⟨.D, 100, [3, 0, 0, 0, 0, 0, 0, 0, 0, 0, 0]⟩,
          ⟨.M, 100, [7 / 2, 201 / 10, 1 / 2, 2 / 5, 10, 60, 0, 0, 0, 50, 500]⟩, ⟨.G, 221 / 2, [70, 2020, 1, 2, 3, 4, 5, 87 / 2, -581 / 5, 0, 0]⟩,
          ⟨.D, 110, [-2, 0, 0, 0, 0, 0, 0, 0, 0, 0, 0]⟩, ⟨.D, 120, [20, 0, 0, 0, 0, 0, 0, 0, 0, 0, 0]⟩]).rows.map TRow.saw) = some [a, b, c, x, y] := hms
      have hR : rolloverOf "0.9" = some 8192 := by decide +kernel
      unfold readSingle
      rw [if_pos (by decide)]
      unfold tryReaders
      simp only [Except.map, Except.bind]
      unfold processData
      rw [hR]
      simp only
      rw [hms']
      simp [cythonTable, TRow.col, Cell.toNumeric, timeCorrection, List.range, List.range.loop, numMCols]
      generalize gpsTable _ _ = g
      cases g <;> exact ⟨_, rfl⟩

end Gemlog
