import Verif.Model.Transcode95
import Verif.Model.GemCat
import Verif.Lemmas.GemCat
import Verif.Props.Transcode
import Verif.Props.ReadBuffer
import Verif.Props.ReadGemMore
import Verif.Props.Convert

/-!
# C80, C81: what can be done with transcoded raw files
-/

namespace Gemlog

/-! ## C80: the compact format written by the transcoder -/

/-- The content of a raw file in the explicit format: the header line `#GemCSV<rest>`, then the lines. -/
def rawText (rest : List Nat) (src : List SrcLine) : List Nat :=
  bytes "#GemCSV" ++ rest ++ [10] ++ (src.map SrcLine.text).flatten

/-- The lines of the same file. -/
def rawLines (rest : List Nat) (src : List SrcLine) : List (List Nat) :=
  (bytes "#GemCSV" ++ rest ++ [10]) :: src.map SrcLine.text

/-- **C80, single files.** `_read_single` with its default version reads the transcoded file like the original, whenever the fast
reader reads the original: same samples, times, GPS and metadata tables, for every time offset, with and without GPS required, whatever
is in the uninitialised buffers and whatever the other readers would do with either file. -/
theorem C80_read_single (version : String) (hver : version ∈ ["0.85C", "0.9", "0.91"]) (rest : List Nat)
    (hrest : ∀ b ∈ rest, b ≠ 10) (hlen : rest.length ≤ 240) (src : List SrcLine) (hsrc : ∀ s ∈ src, s.Valid) :
    ∃ out, transcode version (rawLines rest src) = some out ∧
      ∀ (e rg : Bool) (offset : Rat) (b0 b1 c0 c1 : List Nat) (d : FileData),
        readSingle e ⟨(readWithCython b0 b1 rg (some (rawText rest src))).map cythonTable, .error .other, .error .other⟩
            offset rg "0.9" = .ok d →
        ∀ pandas old pandas' old',
        readSingle e ⟨(readWithCython c0 c1 rg (some out)).map cythonTable, pandas, old⟩ offset rg "0.9" = .ok d ∧
        readSingle e ⟨(readWithCython b0 b1 rg (some (rawText rest src))).map cythonTable, pandas', old'⟩ offset rg "0.9"
          = .ok d := by
  obtain ⟨out, h1, -⟩ := C05_transcoded_file_same_rows version hver rest hrest hlen src hsrc [] []
  have h2 : ∀ b1 b2, parseGem b2 out = parseGem b1 (rawText rest src) := by
    intro b1 b2
    obtain ⟨out', h1', h2'⟩ := C05_transcoded_file_same_rows version hver rest hrest hlen src hsrc b1 b2
    rw [h1] at h1'
    obtain rfl := Option.some.inj h1'
    exact h2'
  refine ⟨out, h1, ?_⟩
  intro e rg offset b0 b1 c0 c1 d hd pandas old pandas' old'
  have hread : readWithCython c0 c1 rg (some out) = readWithCython b0 b1 rg (some (rawText rest src)) := by
    unfold readWithCython
    simp only [parseGemN_eq, h2 b0 c0, h2 b1 c1]
  rw [hread]
  generalize (readWithCython b0 b1 rg (some (rawText rest src))).map cythonTable = r at hd ⊢
  have key : ∀ pandas old, readSingle e ⟨r, pandas, old⟩ offset rg "0.9" = .ok d := by
    intro pandas old
    unfold readSingle at hd ⊢
    rw [if_pos (by decide)] at hd ⊢
    rw [tryReaders] at hd ⊢
    cases hb : r.bind (fun table => processData e table offset "0.9" rg) with
    | error x =>
      rw [hb] at hd
      simp only at hd
      exfalso
      split_ifs at hd with h3 h4
      rw [tryReaders] at hd
      change (if Exc.other.exitsEarly = true then Except.error Exc.other else _) = _ at hd
      rw [if_neg (by decide), if_pos (by decide), tryReaders] at hd
      exact absurd hd (by simp)
    | ok o => rw [hb] at hd; exact hd
  exact ⟨key _ _, key _ _⟩

/-- A file that the fast reader reads, with a GPS and a metadata line, and samples within and beyond the compact range. -/
example : ((readSingle false ⟨(readWithCython [] [] true (some (rawText (bytes "0.91")
      [.other (bytes "S,012"), .sample 100 3, .other (bytes "M,100,3.5,20.1,0.5,0.4,10,60,0,0,0,50,500"),
        .other (bytes "G,110.5,70,2020,1,2,3,4,5.0,43.5,-116.2"), .sample 110 (-2), .sample 120 20]))).map cythonTable,
      .error .other, .error .other⟩ 0 true "0.9").toOption.map fun d => (d.data, d.gps.length, d.metadata.length))
    = some ([(10893 / 100, some 3), (11893 / 100, some 1), (12893 / 100, some 21)], 1, 1) := by
  decide +kernel

theorem transcode_head (version : String) (rest : List Nat) (lines : List (List Nat)) (out : List Nat)
    (h : transcode version ((bytes "#GemCSV" ++ rest ++ [10]) :: lines) = some out) :
    ∃ tail, out = bytes "#GemCSV1.1" ++ [10] ++ tail := by
  have hb7 : bytes "#GemCSV" = [35, 71, 101, 109, 67, 83, 86] := by decide +kernel
  unfold transcode at h
  split_ifs at h
  rw [transcodeGo] at h
  have hh : transcodeLine 0 0 (bytes "#GemCSV" ++ rest ++ [10]) = some ([bytes "#GemCSV1.1\n", bytes "#adcMSSAMP\n"], 0) := by
    unfold transcodeLine
    rw [hb7, if_neg (by simp), if_pos rfl, if_pos (by simp)]
  rw [hh] at h
  simp only [Option.map_map, Option.map_eq_some_iff] at h
  obtain ⟨ws, -, h⟩ := h
  refine ⟨bytes "#adcMSSAMP\n" ++ ws.flatten, ?_⟩
  rw [← h]
  have : bytes "#GemCSV1.1\n" = bytes "#GemCSV1.1" ++ [10] := by decide +kernel
  simp [this]

/-- The format a file states in its first line. -/
theorem formatVersion_head (v tail : List Nat) (hv : ∀ b ∈ v, b ≠ 10) :
    formatVersion (bytes "#GemCSV" ++ v ++ [10] ++ tail) = some (String.ofList (v.map Char.ofNat)) := by
  have hb7 : bytes "#GemCSV" = [35, 71, 101, 109, 67, 83, 86] := by decide +kernel
  unfold formatVersion peekLine
  rw [textLines_line]
  · have hnb : notBlank (bytes "#GemCSV" ++ v ++ [10]) = true := by
      unfold notBlank; rw [hb7]; simp
    rw [List.drop_zero, List.find?_cons, hnb]
    simp only [Option.map_some]
    have hc : chomp (bytes "#GemCSV" ++ v ++ [10]) = bytes "#GemCSV" ++ v := by
      unfold chomp
      rw [if_pos (by simp), List.dropLast_concat]
    rw [hc, hb7]
    rfl
  · intro b hb
    rcases List.mem_append.mp hb with hb | hb
    · rw [hb7] at hb
      have key : ∀ b ∈ [35, 71, 101, 109, 67, 83, 86], b ≠ 10 := by decide
      exact key b hb
    · exact hv b hb

/-- If no block can be read, a conversion ends with an exception, and nothing is written. -/
theorem convertLoops_unreadable {j : Job} (hb : 0 < j.blockdays) (h : ∀ block, ∃ x, j.read block = .error x) (t1 : Option Int)
    (fuel : Nat) (hfuel : blocksLeft j (j.nums.head?.getD 0 : Int) < fuel) : ∃ x, convertLoops j t1 fuel = .raised x [] := by
  have key : ∀ (fuel : Nat) (n1 : Rat) (reads : List (List Int)), blocksLeft j n1 < fuel →
      ∃ x, firstBlock j fuel n1 reads = .raised x [] := by
    intro fuel
    induction fuel with
    | zero => intro n1 reads hf; omega
    | succ fuel ih =>
      intro n1 reads hf
      rw [firstBlock]
      split_ifs with hn
      · obtain ⟨x, hx⟩ := h (j.block n1)
        simp only [hx]
        split_ifs
        · have := blocksLeft_lt hb hn
          exact ih _ _ (by omega)
        · exact ⟨x, rfl⟩
      · exact ⟨_, rfl⟩
  obtain ⟨x, hk⟩ := key fuel (j.nums.head?.getD 0 : Int) [] hfuel
  unfold convertLoops
  rw [hk]; exact ⟨x, rfl⟩

/-- **C80, violated.** The transcoder writes `1.1` as the format, which `read_gem` does not know: for every raw directory whose selected
files are transcoded, `read_gem` raises, whatever the readers would return. -/
theorem C80_violated_read_gem (content : Entry → List Nat) (env : Env) (henv : ∀ e, env.version e = formatVersion (content e))
    (dir : List Entry) (SN : List Nat) (nums : List Int) (rg : Bool) (hne : findFiles dir SN nums ≠ [])
    (htr : ∀ e ∈ findFiles dir SN nums, ∃ version rest src, transcode version (rawLines rest src) = some (content e)) :
    readGem env dir SN nums rg = .error .other := by
  unfold readGem
  cases hf : findFiles dir SN nums with
  | nil => exact absurd hf hne
  | cons e l =>
    obtain ⟨version, rest, src, h⟩ := htr e (by rw [hf]; simp)
    obtain ⟨tail, ht⟩ := transcode_head _ _ _ _ h
    have hver : env.version e = some "1.1" := by
      rw [henv, ht]
      have := formatVersion_head (bytes "1.1") tail (by decide +kernel)
      rw [show bytes "#GemCSV" ++ bytes "1.1" = bytes "#GemCSV1.1" from by decide +kernel] at this
      rw [this]
      decide +kernel
    exact (C56_formats env e l SN rg "1.1" hver).2.2 (by decide)

/-- **C80, violated.** Converting a raw directory whose files are all transcoded ends with an exception, and no data are written:
for all large enough bounds on the number of loop iterations. -/
theorem C80_violated_convert (content : Entry → List Nat) (env : Env) (henv : ∀ e, env.version e = formatVersion (content e))
    (dir : List Entry) (htr : ∀ e ∈ dir, ∃ version rest src, transcode version (rawLines rest src) = some (content e))
    (isDir : Bool) (SN : List Nat) (nums : List (Option Int)) (blockdays : Rat) (L : Int) (hb : 0 < blockdays) (t1 : Option Int) (t2 : Int) :
    ∃ n, ∀ fuel, n ≤ fuel → ∃ x, convertDir env isDir dir SN nums blockdays L t1 t2 fuel = .raised x [] := by
  unfold convertDir
  cases hn : convertNums isDir dir SN nums with
  | error x => exact ⟨0, fun fuel _ => ⟨x, rfl⟩⟩
  | ok ns =>
    refine ⟨blocksLeft (jobOf env dir SN ns blockdays L t2) (ns.head?.getD 0 : Int) + 1, fun fuel hf =>
      convertLoops_unreadable (j := jobOf env dir SN ns blockdays L t2) hb (fun block => ?_) t1 fuel ?_⟩
    · change ∃ x, (readGem env dir SN block true).map GemData.stream = .error x
      by_cases hf : findFiles dir SN block = []
      · refine ⟨.missingRaw, ?_⟩
        unfold readGem
        rw [hf]; rfl
      · refine ⟨.other, ?_⟩
        rw [C80_violated_read_gem content env henv dir SN block true hf]
        · rfl
        · intro e he
          exact htr e ((mem_findFiles dir SN block e).mp he).1
    · change blocksLeft _ (ns.head?.getD 0 : Int) < fuel
      omega

/-- A directory with a transcoded file that `read_gem` refuses: the file stems from a valid original with a sample and a damaged line,
and `findFiles` finds it. -/
example : let e : Entry := ⟨bytes "FILE0001.012", 500, .str (bytes "012")⟩
    findFiles [e] (bytes "012") [1] = [e] ∧
    transcode "0.91" (rawLines (bytes "0.91") [.other (bytes "S,012"), .sample 100 3, .sample 110 (-2)])
      = some (bytes "#GemCSV1.1\n#adcMSSAMP\nS,012\nD100,3\nmk\n") ∧
    formatVersion (bytes "#GemCSV1.1\n#adcMSSAMP\nS,012\nD100,3\nmk\n") = some "1.1" := by
  refine ⟨?_, ?_, ?_⟩ <;> decide +kernel

/-! ## C81: the format 0.95 -/

/-- The value of upper case hexadecimal digits. -/
def hexValue (l : List Nat) : Nat := l.foldl (fun a b => 16 * a + (if b ≤ 57 then b - 48 else b - 55)) 0

/-- An upper case hexadecimal digit. -/
def IsHex (b : Nat) : Prop := (48 ≤ b ∧ b ≤ 57) ∨ (65 ≤ b ∧ b ≤ 70)

theorem hexDigit_spec {d : Nat} (h : d < 16) :
    IsHex (hexDigit d) ∧ (if hexDigit d ≤ 57 then hexDigit d - 48 else hexDigit d - 55) = d := by
  unfold IsHex hexDigit
  split_ifs <;> omega

theorem hexValue_snoc (l : List Nat) (b : Nat) :
    hexValue (l ++ [b]) = 16 * hexValue l + (if b ≤ 57 then b - 48 else b - 55) := by
  unfold hexValue; rw [List.foldl_append]; rfl

theorem hexStrAux_spec : ∀ (f n : Nat) (acc : List Nat), n < f →
    ∃ ds, hexStrAux f n acc = ds ++ acc ∧ ds ≠ [] ∧ (∀ d ∈ ds, IsHex d) ∧ hexValue ds = n ∧
      ∀ L, n < 16 ^ (L + 1) → ds.length ≤ L + 1 := by
  intro f
  induction f with
  | zero => intro n acc h; omega
  | succ f ih =>
    intro n acc h
    simp only [hexStrAux]
    split_ifs with h16
    · have hs := hexDigit_spec h16
      refine ⟨[hexDigit n], by simp, by simp, by simpa using hs.1, ?_, by simp⟩
      unfold hexValue
      simpa using hs.2
    · obtain ⟨ds, h1, h2, h3, h4, h5⟩ := ih (n / 16) (hexDigit (n % 16) :: acc) (by omega)
      have hs := hexDigit_spec (d := n % 16) (by omega)
      refine ⟨ds ++ [hexDigit (n % 16)], by rw [h1]; simp, by simp, ?_, ?_, ?_⟩
      · intro d hd
        rcases List.mem_append.mp hd with hd | hd
        · exact h3 d hd
        · simp at hd; subst hd; exact hs.1
      · rw [hexValue_snoc, h4, hs.2]; omega
      · intro L hL
        cases L with
        | zero => omega
        | succ L =>
          have := h5 L (by rw [pow_succ] at hL; omega)
          simp; omega

theorem hexStr_spec (n : Nat) : hexStr n ≠ [] ∧ (∀ d ∈ hexStr n, IsHex d) ∧ hexValue (hexStr n) = n ∧
    ∀ L, n < 16 ^ (L + 1) → (hexStr n).length ≤ L + 1 := by
  obtain ⟨ds, h1, h2⟩ := hexStrAux_spec (n + 1) n [] (by omega)
  have : hexStr n = ds := by unfold hexStr; rw [h1]; simp
  rw [this]; exact h2

/-- What a line of the original file becomes in the format 0.95: a sample of at most 12 counts becomes one letter (`m` for 0) and the
milliseconds modulo 4096 in hexadecimal, in at most five bytes; any other line stays as it is. -/
def Becomes95 (s : SrcLine) (w : List Nat) : Prop :=
  (∃ (ms : Nat) (adc : Int) (c : Nat) (ds : List Nat), s = .sample ms adc ∧ adc.natAbs ≤ 12 ∧ w = c :: ds ++ [10] ∧ (c : Int) = adc + 109 ∧ ds ≠ [] ∧
      (∀ d ∈ ds, IsHex d) ∧ hexValue ds = ms % 4096 ∧ w.length ≤ 5) ∨
  (w = s.text ∧ ∀ ms adc, s = .sample ms adc → 12 < adc.natAbs)

theorem transcode95_sample (i ms : Nat) (adc : Int) : transcode95Line i (lineD (.ofNat ms) adc) =
    if adc.natAbs ≤ 12 then some [(adc + 109).toNat :: hexStr (ms % 4096) ++ [10]] else some [lineD (.ofNat ms) adc] := by
  unfold transcode95Line
  rw [if_pos (by simp [lineD])]
  simp only [split_lineD]
  have h1 : pyInt (intStr adc ++ [10]) = some adc :=
    pyInt_intStr adc [10] (by intro b hb; simp at hb; subst hb; rfl)
  have h2 : pyInt (natStr ms) = some (ms : Int) := by
    have := pyInt_intStr (ms : Int) [] (by simp)
    unfold intStr at this
    rw [if_neg (by omega)] at this
    simpa using this
  have h3 : (((ms : Int) % 4096).toNat) = ms % 4096 := by omega
  simp [h1, h2, h3]

theorem transcode95_lines : ∀ (src : List SrcLine), (∀ s ∈ src, s.Valid) → ∀ i, 0 < i →
    ∃ ws, transcode95Go i (src.map SrcLine.text) = some ws ∧ List.Forall₂ Becomes95 src ws := by
  intro src
  induction src with
  | nil => intro _ i _; exact ⟨[], rfl, .nil⟩
  | cons s src ih =>
    intro hv i hi
    obtain ⟨ws, h1, h2⟩ := ih (fun x hx => hv x (by simp [hx])) (i + 1) (by omega)
    have hs := hv s (by simp)
    have key : ∃ w, transcode95Line i s.text = some [w] ∧ Becomes95 s w := by
      cases s with
      | sample ms adc =>
        simp only [SrcLine.text, transcode95_sample]
        split_ifs with hc
        · obtain ⟨e1, e2, e3, e4⟩ := hexStr_spec (ms % 4096)
          have := e4 2 (by omega)
          exact ⟨_, rfl, Or.inl ⟨ms, adc, _, _, rfl, hc, rfl, by omega, e1, e2, e3, by simp; omega⟩⟩
        · refine ⟨_, rfl, Or.inr ⟨rfl, ?_⟩⟩
          intro ms' adc' h
          injection h with h3 h4
          subst h4; omega
      | other body =>
        refine ⟨body ++ [10], ?_, Or.inr ⟨rfl, by intro _ _ h; exact absurd h (by simp)⟩⟩
        change transcode95Line i (body ++ [10]) = some [body ++ [10]]
        unfold transcode95Line
        have hnD : ¬ (body ++ [10]).head? = some 68 := by
          cases body with
          | nil => simp
          | cons x l => simpa using (hs.2.2 x (by simp)).1
        rw [if_neg hnD, if_neg (by omega)]
    obtain ⟨w, h3, h4⟩ := key
    refine ⟨w :: ws, ?_, .cons h4 h2⟩
    rw [List.map_cons, transcode95Go, h3, h1]
    rfl

/-- **C81.** Every valid raw file is transcoded to the format 0.95 without error: after the two header lines comes one line for each
line of the original, in order; each sample of at most 12 counts becomes a line that states its counts and its time modulo 4096 ms and
nothing else, and every other line is unchanged. -/
theorem C81_lines (version : String) (hver : version ∈ ["0.85C", "0.9", "0.91"]) (rest : List Nat) (src : List SrcLine)
    (hsrc : ∀ s ∈ src, s.Valid) :
    ∃ ws, transcode95 version (rawLines rest src) = some (bytes "#GemCSV0.95\n" ++ bytes "#adcMSSAMP\n" ++ ws.flatten) ∧
      List.Forall₂ Becomes95 src ws := by
  obtain ⟨ws, h1, h2⟩ := transcode95_lines src hsrc 1 (by omega)
  refine ⟨ws, ?_, h2⟩
  have hb7 : bytes "#GemCSV" = [35, 71, 101, 109, 67, 83, 86] := by decide +kernel
  have hh : transcode95Line 0 (bytes "#GemCSV" ++ rest ++ [10]) = some [bytes "#GemCSV0.95\n", bytes "#adcMSSAMP\n"] := by
    unfold transcode95Line
    rw [hb7, if_neg (by simp), if_pos rfl, if_pos (by simp)]
  unfold transcode95 rawLines
  rw [if_pos hver, transcode95Go, hh]
  simp only
  rw [h1]
  simp

/-- **C81, other inputs.** Files of other formats are refused. -/
theorem C81_refused (version : String) (hver : version ∉ ["0.85C", "0.9", "0.91"]) (lines : List (List Nat)) :
    transcode95 version lines = none := by
  unfold transcode95; rw [if_neg hver]

/-- A file with a sample whose time needs leading zeros, one beyond 12 counts, and a GPS line. -/
example : (∀ s ∈ [SrcLine.sample 2560 1, .other (bytes "G,8171,70"), .sample 4099 (-12), .sample 8191 13], s.Valid) ∧
    transcode95 "0.91" (rawLines (bytes "0.91") [.sample 2560 1, .other (bytes "G,8171,70"), .sample 4099 (-12), .sample 8191 13])
      = some (bytes "#GemCSV0.95\n#adcMSSAMP\nnA00\nG,8171,70\na3\nD8191,13\n") := by
  constructor
  · intro s hs
    simp only [List.mem_cons, List.not_mem_nil, or_false] at hs
    rcases hs with h | h | h | h <;> subst h <;> simp only [SrcLine.Valid] <;> decide +kernel
  · decide +kernel

/-- All sample times later by 4096 ms, half the range of the counter; all other lines as they are. -/
def SrcLine.halfLater : SrcLine → SrcLine
  | .sample ms adc => .sample ((ms + 4096) % 8192) adc
  | .other body => .other body

/-- **C81, violated.** The format 0.95 loses half of the information on time: moving all samples by 4096 ms relative to the GPS lines
changes the original, but not the transcoded file, for every recording of samples of at most 12 counts. -/
theorem C81_violated_times (version : String) (rest : List Nat) (src : List SrcLine)
    (hsrc : ∀ s ∈ src, s.Valid) (h12 : ∀ ms adc, SrcLine.sample ms adc ∈ src → adc.natAbs ≤ 12) :
    transcode95 version (rawLines rest (src.map SrcLine.halfLater)) = transcode95 version (rawLines rest src) ∧
    ((∃ ms adc, SrcLine.sample ms adc ∈ src) → src.map SrcLine.halfLater ≠ src) := by
  constructor
  · have key : ∀ (src : List SrcLine), (∀ s ∈ src, s.Valid) → (∀ ms adc, SrcLine.sample ms adc ∈ src → adc.natAbs ≤ 12) → ∀ i,
        transcode95Go i ((src.map SrcLine.halfLater).map SrcLine.text) = transcode95Go i (src.map SrcLine.text) := by
      intro src
      induction src with
      | nil => intro _ _ i; rfl
      | cons s src ih =>
        intro hv h12 i
        rw [List.map_cons, List.map_cons, List.map_cons, transcode95Go, transcode95Go,
          ih (fun x hx => hv x (by simp [hx])) (fun ms adc h => h12 ms adc (by simp [h]))]
        cases s with
        | sample ms adc =>
          have h := h12 ms adc (by simp)
          have hm : ((ms + 4096) % 8192) % 4096 = ms % 4096 := by omega
          simp only [SrcLine.halfLater, SrcLine.text, transcode95_sample, if_pos h, hm]
        | other body => rfl
    unfold transcode95 rawLines
    split_ifs
    · rw [transcode95Go, transcode95Go, key src hsrc h12]
    · rfl
  · rintro ⟨ms, adc, hm⟩ heq
    have h1 : ∀ s ∈ src, s.halfLater = s := by
      have := List.map_eq_map_iff (f := SrcLine.halfLater) (g := id) (l := src)
      rw [List.map_id] at this
      exact this.mp heq
    have h2 := h1 _ hm
    have h3 := (hsrc _ hm).1
    simp only [SrcLine.halfLater, SrcLine.sample.injEq] at h2
    omega

theorem transcode95_head (version : String) (rest : List Nat) (lines : List (List Nat)) (out : List Nat)
    (h : transcode95 version ((bytes "#GemCSV" ++ rest ++ [10]) :: lines) = some out) :
    ∃ tail, out = bytes "#GemCSV0.95" ++ [10] ++ tail := by
  have hb7 : bytes "#GemCSV" = [35, 71, 101, 109, 67, 83, 86] := by decide +kernel
  unfold transcode95 at h
  split_ifs at h
  rw [transcode95Go] at h
  have hh : transcode95Line 0 (bytes "#GemCSV" ++ rest ++ [10]) = some [bytes "#GemCSV0.95\n", bytes "#adcMSSAMP\n"] := by
    unfold transcode95Line
    rw [hb7, if_neg (by simp), if_pos rfl, if_pos (by simp)]
  rw [hh] at h
  simp only [Option.map_map, Option.map_eq_some_iff] at h
  obtain ⟨ws, -, h⟩ := h
  refine ⟨bytes "#adcMSSAMP\n" ++ ws.flatten, ?_⟩
  rw [← h]
  have : bytes "#GemCSV0.95\n" = bytes "#GemCSV0.95" ++ [10] := by decide +kernel
  simp [this]

/-- **C81, violated.** `read_gem` does not know the format 0.95 either: it raises for every selection of such files. -/
theorem C81_violated_read_gem (content : Entry → List Nat) (env : Env) (henv : ∀ e, env.version e = formatVersion (content e))
    (dir : List Entry) (SN : List Nat) (nums : List Int) (rg : Bool) (hne : findFiles dir SN nums ≠ [])
    (htr : ∀ e ∈ findFiles dir SN nums, ∃ version rest src, transcode95 version (rawLines rest src) = some (content e)) :
    readGem env dir SN nums rg = .error .other := by
  unfold readGem
  cases hf : findFiles dir SN nums with
  | nil => exact absurd hf hne
  | cons e l =>
    obtain ⟨version, rest, src, h⟩ := htr e (by rw [hf]; simp)
    obtain ⟨tail, ht⟩ := transcode95_head _ _ _ _ h
    have hver : env.version e = some "0.95" := by
      rw [henv, ht]
      have := formatVersion_head (bytes "0.95") tail (by decide +kernel)
      rw [show bytes "#GemCSV" ++ bytes "0.95" = bytes "#GemCSV0.95" from by decide +kernel] at this
      rw [this]
      decide +kernel
    exact (C56_formats env e l SN rg "0.95" hver).2.2 (by decide)

end Gemlog
