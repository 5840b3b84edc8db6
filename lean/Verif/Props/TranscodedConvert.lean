import Verif.Props.TranscodedMixed
import Verif.Props.Again

/-!
# C80: converting folders with transcoded files behind originals
-/

namespace Gemlog

/-- Specification: of the files of a block the first is an original, of a format that is read like 0.9; each of the others is as it was or replaced by its transcoded copy. -/
def OriginalFirst (d : RawDisk) (content' : Entry → List Nat) : List Entry → Prop
  | [] => True
  | first :: rest => content' first = d.content first ∧ (∃ v ∈ ["0.85C", "0.9", "0.91", "1.10"], formatVersion (d.content first) = some v) ∧
      ∀ e ∈ rest, content' e = d.content e ∨ TranscodedCopy d true (d.content e) (content' e)

/-- **C80, convert.** If in every block of files the first one is an original, the others may be transcoded: the conversion does exactly the same as with the originals. -/
theorem C80_convert_behind_original (d : RawDisk) (content' : Entry → List Nat) (isDir : Bool) (dir : List Entry) (SN : List Nat) (nums : List (Option Int))
    (blockdays : Rat) (L : Int) (t1 : Option Int) (t2 : Int) (hb : 0 < blockdays)
    (h : ∀ ns, convertNums isDir dir SN nums = .ok ns → ∀ block ∈ (jobOf d.env dir SN ns blockdays L t2).blocks, OriginalFirst d content' (findFiles dir SN block))
    (fuel : Nat) :
    convertDir { d with content := content' }.env isDir dir SN nums blockdays L t1 t2 fuel = convertDir d.env isDir dir SN nums blockdays L t1 t2 fuel := by
  unfold convertDir
  cases hn : convertNums isDir dir SN nums with
  | error x => rfl
  | ok ns =>
    simp only
    rw [← convertLoops_onlyBlocks (jobOf d.env dir SN ns blockdays L t2) hb, ← convertLoops_onlyBlocks (jobOf _ dir SN ns blockdays L t2) hb]
    congr 1
    unfold Job.onlyBlocks
    have hread : ∀ block ∈ (jobOf d.env dir SN ns blockdays L t2).blocks,
        readGem ({ d with content := content' } : RawDisk).env dir SN block true = readGem d.env dir SN block true := by
      intro block hblock
      have := h ns hn block hblock
      cases hf : findFiles dir SN block with
      | nil => unfold readGem; rw [hf]
      | cons first rest =>
        rw [hf] at this
        obtain ⟨h1, ⟨v, hv4, hv⟩, h3⟩ := this
        exact C80_behind_original d content' dir SN block true first rest v hf h1 hv hv4 h3
    have hbl : (jobOf ({ d with content := content' } : RawDisk).env dir SN ns blockdays L t2).blocks = (jobOf d.env dir SN ns blockdays L t2).blocks := rfl
    rw [hbl]
    unfold jobOf at hread ⊢
    simp only [Job.mk.injEq, true_and]
    funext block
    split_ifs with hc
    · rw [hread block hc]
    · rfl

/-- A folder of two files with fixes, the second of which is replaced by its transcoded copy. -/
example (d : RawDisk) (h0 : d.buf0 = []) (h1 : d.buf1 = []) (e1 e2 : Entry) (hne : e2 ≠ e1)
    (hc : ∀ e, d.content e = rawText (bytes "0.91") [.other (bytes "S,012"), .sample 100 3, .other (bytes "M,100,3.5,20.1,0.5,0.4,10,60,0,0,0,50,500"),
        .other (bytes "G,110.5,70,2020,1,2,3,4,5.0,43.5,-116.2"), .sample 110 (-2), .sample 120 20]) :
    OriginalFirst d (fun e => if e = e2 then (bytes "#GemCSV1.1\n#adcMSSAMP\nS,012\nD100,3\nM,100,3.5,20.1,0.5,0.4,10,60,0,0,0,50,500\nG,110.5,70,2020,1,2,3,4,5.0,43.5,-116.2\nmk\nD120,20\n") else d.content e) [e1, e2] := by
  refine ⟨if_neg (Ne.symm hne), ⟨"0.91", by decide, by rw [hc]; decide +kernel⟩, ?_⟩
  intro e he
  rw [List.mem_singleton] at he
  subst he
  right
  beta_reduce
  rw [if_pos rfl, hc]
  refine ⟨"0.91", bytes "0.91", _, by decide, by decide +kernel, by decide +kernel, ?_, rfl, by decide +kernel, ?_⟩
  · intro s hs
    simp only [List.mem_cons, List.not_mem_nil, or_false] at hs
    rcases hs with h | h | h | h | h | h <;> subst h <;> simp only [SrcLine.Valid] <;> decide +kernel
  · intro offset
    rw [h0, h1]
    have hrows : (readWithCython [] [] true (some (rawText (bytes "0.91") [.other (bytes "S,012"), .sample 100 3, .other (bytes "M,100,3.5,20.1,0.5,0.4,10,60,0,0,0,50,500"),
        .other (bytes "G,110.5,70,2020,1,2,3,4,5.0,43.5,-116.2"), .sample 110 (-2), .sample 120 20]))).toOption = some [⟨.D, 100, [3, 0, 0, 0, 0, 0, 0, 0, 0, 0, 0]⟩,
          ⟨.M, 100, [7 / 2, 201 / 10, 1 / 2, 2 / 5, 10, 60, 0, 0, 0, 50, 500]⟩, ⟨.G, 221 / 2, [70, 2020, 1, 2, 3, 4, 5, 87 / 2, -581 / 5, 0, 0]⟩,
          ⟨.D, 110, [-2, 0, 0, 0, 0, 0, 0, 0, 0, 0, 0]⟩, ⟨.D, 120, [20, 0, 0, 0, 0, 0, 0, 0, 0, 0, 0]⟩] := by
      decide +kernel
    revert hrows
    generalize readWithCython [] [] true _ = r
    intro hrows
    cases r with
    | error x => cases hrows
    | ok rows =>
      obtain rfl := Option.some.inj hrows
      obtain ⟨a, b, c, x, y, hms⟩ : ∃ a b c x y, correctedMillis 8192 offset [100, 100, 221 / 2, 110, 120] = some [a, b, c, x, y] :=
        ⟨_, _, _, _, _, rfl⟩
      have hms' : correctedMillis 8192 offset ((cythonTable [⟨.D, 100, [3, 0, 0, 0, 0, 0, 0, 0, 0, 0, 0]⟩,
          ⟨.M, 100, [7 / 2, 201 / 10, 1 / 2, 2 / 5, 10, 60, 0, 0, 0, 50, 500]⟩, ⟨.G, 221 / 2, [70, 2020, 1, 2, 3, 4, 5, 87 / 2, -581 / 5, 0, 0]⟩,
          ⟨.D, 110, [-2, 0, 0, 0, 0, 0, 0, 0, 0, 0, 0]⟩, ⟨.D, 120, [20, 0, 0, 0, 0, 0, 0, 0, 0, 0, 0]⟩]).rows.map TRow.saw) = some [a, b, c, x, y] := hms
      have hR : rolloverOf "0.9" = some 8192 := by decide +kernel
      unfold readSingle
      rw [if_pos (by decide)]
      unfold tryReaders
      simp only [Except.map, Except.bind]
      unfold processData
      rw [hR]
      simp only
      rw [hms']
      have hin : gpsInBounds ⟨c, some 70, some 2020, some 1, some 2, some 3, some 4, some 5, some (87 / 2), some (-581 / 5)⟩ = true := by
        show gpsInBounds ⟨0, some 70, some 2020, some 1, some 2, some 3, some 4, some 5, some (87 / 2), some (-581 / 5)⟩ = true
        decide +kernel
      have hti : makeGpsTime ⟨c, some 70, some 2020, some 1, some 2, some 3, some 4, some 5, some (87 / 2), some (-581 / 5)⟩ = some 1577934245 := by
        show makeGpsTime ⟨0, some 70, some 2020, some 1, some 2, some 3, some 4, some 5, some (87 / 2), some (-581 / 5)⟩ = some 1577934245
        decide +kernel
      have hg : gpsTable d.emptyRaises [(c, ⟨.G, 221 / 2, [.nan, .num 70, .num 2020, .num 1, .num 2, .num 3, .num 4, .num 5, .num (87 / 2),
          .num (-581 / 5), .num 0, .num 0]⟩)] = some [⟨⟨c, some 70, some 2020, some 1, some 2, some 3, some 4, some 5, some (87 / 2), some (-581 / 5)⟩, 1577934245⟩] := by
        simp [gpsTable, gRow, TRow.col, Cell.toNumeric, hin, withTime, hti]
      simp [cythonTable, TRow.col, Cell.toNumeric, timeCorrection, List.range, List.range.loop, numMCols]
      rw [hg]
      exact ⟨_, rfl⟩

/-- **C80, violated: the first file.** One transcoded file is enough: if the first of the selected files is transcoded, `read_gem` raises, whatever the others are. -/
theorem C80_violated_first (d : RawDisk) (dir : List Entry) (SN : List Nat) (nums : List Int) (rg : Bool) (first : Entry) (rest : List Entry)
    (hsel : findFiles dir SN nums = first :: rest) (version : String) (hdr : List Nat) (src : List SrcLine)
    (htr : transcode version (rawLines hdr src) = some (d.content first)) : readGem d.env dir SN nums rg = .error .other := by
  obtain ⟨tail, ht⟩ := transcode_head _ _ _ _ htr
  have hver : d.env.version first = some "1.1" := by
    show formatVersion (d.content first) = some "1.1"
    rw [ht]
    have := formatVersion_head (bytes "1.1") tail (by decide +kernel)
    rw [show bytes "#GemCSV" ++ bytes "1.1" = bytes "#GemCSV1.1" from by decide +kernel] at this
    rw [this]
    decide +kernel
  unfold readGem
  rw [hsel]
  exact (C56_formats d.env first rest SN rg "1.1" hver).2.2 (by decide)

/-- A transcoded file, and an original with a higher number. -/
example : findFiles [⟨bytes "FILE0001.012", 500, .str (bytes "012")⟩, ⟨bytes "FILE0002.012", 500, .str (bytes "012")⟩] (bytes "012") [1, 2]
      = [⟨bytes "FILE0001.012", 500, .str (bytes "012")⟩, ⟨bytes "FILE0002.012", 500, .str (bytes "012")⟩] ∧
    transcode "0.91" (rawLines (bytes "0.91") [.other (bytes "S,012"), .sample 100 3, .sample 110 (-2)])
      = some (bytes "#GemCSV1.1\n#adcMSSAMP\nS,012\nD100,3\nmk\n") := by
  constructor <;> decide +kernel

end Gemlog
