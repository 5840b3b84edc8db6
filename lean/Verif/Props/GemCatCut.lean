import Verif.Props.GemCatDir

/-! # C44: a file cut off before its last newline -/

namespace Gemlog

/-- What `AppendFile` adds behind any readable content (helper). -/
theorem append_read (env : CatEnv) {f : RawText} (hf : f.Valid) (hvf : f.version ∈ ["0.85C", "0.9", "1.10"])
    {prev : List Nat} {d : FileData} {z : Int} (hd : env.read prev f.version = .ok d) (hlast : lastPressure d = .ok z) :
    appendText env f.text prev = .ok (((RawLine.sample f.t (f.first - z) :: f.rest).map RawLine.text).flatten) := by
  obtain ⟨v1, v2, v3, v4⟩ := version_bytes hvf
  have hlines := RawText.textLines hf hvf
  -- the version
  have hnb0 : notBlank (bytes "#GemCSV" ++ bytes f.version ++ [10]) = true := by
    rw [notBlank_iff]
    exact ⟨35, by simp [bytes], by decide, by decide⟩
  have hver : formatVersion f.text = some f.version := by
    unfold formatVersion
    rw [hlines]
    unfold RawText.lines
    simp only [List.map_cons, List.cons_append, RawLine.text]
    have : peekLine ((bytes "#GemCSV" ++ bytes f.version ++ [10]) ::
        List.map RawLine.text (List.map RawLine.other f.head ++ RawLine.sample f.t f.first :: f.rest)) 0
        = some (bytes "#GemCSV" ++ bytes f.version) := by
      simp only [peekLine, List.drop_zero, List.find?_cons, hnb0, Option.map_some, chomp_line]
    rw [this, Option.map_some, v4]
  -- the first sample
  have hsplit : f.lines.map RawLine.text = ((bytes "#GemCSV" ++ bytes f.version ++ [10]) :: f.head.map (· ++ [10])) ++
      lineD f.t f.first :: f.rest.map RawLine.text := by
    unfold RawText.lines
    simp [RawLine.text, Function.comp_def]
  have hhead : ∀ l ∈ (bytes "#GemCSV" ++ bytes f.version ++ [10]) :: f.head.map (· ++ [10]),
      notBlank l = true ∧ l.head? ≠ some 68 := by
    intro l hl
    rcases List.mem_cons.mp hl with rfl | hl
    · exact ⟨hnb0, by simp [bytes]⟩
    · obtain ⟨x, hx, rfl⟩ := List.mem_map.mp hl
      obtain ⟨⟨b, hb, hb2⟩, h2, h3, h4⟩ := hf.head x hx
      refine ⟨(notBlank_iff _).mpr ⟨b, by simp [hb], h2 b hb, hb2⟩, ?_⟩
      cases x with
      | nil => simp at hb
      | cons y x =>
        have := h4 y (by simp)
        simpa using this.1
  have hnbs : notBlank (lineD f.t f.first) = true := (notBlank_iff _).mpr ⟨68, by simp [lineD], by decide, by decide⟩
  obtain ⟨f1, f2⟩ := find_first (rest := f.rest.map RawLine.text) hhead hnbs (by simp [lineD])
  have hch : chomp (lineD f.t f.first) = 68 :: joinFields [.dec f.t, .int f.first] := by
    unfold lineD
    rw [chomp_line]
  unfold appendText
  rw [hver]
  simp only [(diff_versions hvf).2.2.2.1, if_true, hd, Except.bind, hlast]
  rw [hlines, hsplit, f1]
  simp only [f2, Option.elim_some, hch, adjust_lineD]
  congr 1
  have : ∀ (a b : List (List Nat)) (x : List Nat), (a ++ x :: b).drop (a.length + 1) = b := by
    intro a b x
    rw [← List.drop_drop, List.drop_left]
    rfl
  rw [this]
  simp [RawLine.text]

theorem runningSums_shift : ∀ (l : List Int) (a c : Int), runningSums (a + c) l = (runningSums a l).map (· + c) := by
  intro l
  induction l with
  | nil => intro a c; rfl
  | cons x l ih =>
    intro a c
    simp only [runningSums, List.map_cons]
    rw [show a + c + x = a + x + c from by ring, ih]

/-- **C44 is violated** for every file `f` whose last line is a status line, a fix or another line that is not a sample, and has
lost its newline, as by a power failure: although all of `f`'s pressures are read from what is left, in the file merged with the
next one, `g`, the first sample of `g` is lost, because its line is glued to `f`'s last one, and all the others are off by
the difference between the last pressure of `f` and the first one of `g`. -/
theorem C44_violated_cut_off (env : CatEnv) (f g : RawText) (hf : f.Valid) (hg : g.Valid)
    (hvf : f.version ∈ ["0.85C", "0.9", "1.10"]) (hvg : g.version ∈ ["0.85C", "0.9", "1.10"])
    (before : List RawLine) (body : List Nat) (hrest : f.rest = before ++ [.other body]) (hbody : body ≠ [])
    (last : Int) (hl : f.pressures.getLast? = some last)
    (hglue : body.length + (lineD g.t (g.first - last)).length ≤ 255)
    (hlen : f.head.length + f.rest.length + g.rest.length + 2 ≤ 65520000)
    (d : FileData) (hread : env.read f.text.dropLast g.version = .ok d)
    (hdata : d.data.map Prod.snd = f.pressures.map fun z : Int => some (z : Rat))
    (sn : List Nat) (hsn : env.readSN f.text.dropLast = some sn) :
    ∃ out, gemCatFiles env true [f.text.dropLast, g.text] = .ok [(bytes "FILE9999." ++ sn, out)] ∧
      ∀ version ∈ ["0.85C", "0.9", "1.10"], ∃ d', env.read out version = .ok d' ∧
        d'.data.map Prod.snd = (f.pressures ++ g.pressures.tail.map (· + (last - g.first))).map fun z : Int => some (z : Rat) := by
  have hlast : lastPressure d = .ok last := by
    have h1 : (d.data.map Prod.snd).getLast? = some (some (last : Rat)) := by
      rw [hdata, List.getLast?_map, hl]; rfl
    rw [List.getLast?_map, Option.map_eq_some_iff] at h1
    obtain ⟨q, hq, hq2⟩ := h1
    unfold lastPressure
    rw [hq]
    simp only [hq2, pyTrunc_int]
  have hap := append_read env hg hvg hread hlast
  have htot : f.total = last := by
    have := f.total_last
    rw [hl] at this
    simpa using this.symm
  -- the lines of the first file
  obtain ⟨L0, hL0⟩ : ∃ L0, f.lines = L0 ++ [.other body] := by
    refine ⟨.other (bytes "#GemCSV" ++ bytes f.version) :: f.head.map .other ++ .sample f.t f.first :: before, ?_⟩
    unfold RawText.lines
    rw [hrest]
    simp
  have hcut : f.text.dropLast = (L0.map RawLine.text).flatten ++ body := by
    rw [f.text_lines, hL0]
    simp only [List.map_append, List.map_cons, List.map_nil, List.flatten_append, List.flatten_cons, List.flatten_nil,
      List.append_nil, RawLine.text]
    rw [← List.append_assoc, List.dropLast_concat]
  have hv := RawText.lines_valid hf hvf
  have hb := hv (.other body) (by rw [hL0]; simp)
  obtain ⟨hb1, hb2, hb3⟩ := hb
  set glued : List Nat := body ++ 68 :: joinFields [.dec g.t, .int (g.first - last)] with hglued
  have hline : lineD g.t (g.first - last) = 68 :: joinFields [.dec g.t, .int (g.first - last)] ++ [10] := rfl
  have hnl : ∀ b ∈ 68 :: joinFields [.dec g.t, .int (g.first - last)], b ≠ 10 := by
    obtain ⟨c, hc1, hc2, _⟩ := lineD_isLine (show (lineD g.t (g.first - last)).length ≤ 255 by omega)
    rw [hline] at hc1
    have := List.append_inj_left' hc1 rfl
    rw [this]; exact hc2
  have hgv : (RawLine.other glued).Valid := by
    refine ⟨?_, ?_, ?_⟩
    · intro b hb'
      rcases List.mem_append.mp hb' with h | h
      · exact hb1 b h
      · exact hnl b h
    · rw [hline] at hglue
      simp only [hglued, List.length_append, List.length_cons, List.length_nil] at hglue ⊢
      omega
    · intro b hb'
      apply hb3
      cases body with
      | nil => exact absurd rfl hbody
      | cons x body => simpa [hglued] using hb'
  have hout : f.text.dropLast ++ ((RawLine.sample g.t (g.first - last) :: g.rest).map RawLine.text).flatten
      = ((L0 ++ .other glued :: g.rest).map RawLine.text).flatten := by
    rw [hcut]
    simp only [List.map_append, List.map_cons, List.flatten_append, List.flatten_cons, RawLine.text, hline, hglued,
      List.append_assoc]
  refine ⟨f.text.dropLast ++ ((RawLine.sample g.t (g.first - last) :: g.rest).map RawLine.text).flatten, ?_, ?_⟩
  · unfold gemCatFiles
    simp only [hsn, catLoop, catStep, if_true]
    simp [hap, Except.map, addToLast]
  intro version hver
  have hsteps : L0.filterMap RawLine.step = f.first :: f.rest.filterMap RawLine.step := by
    have := f.steps
    rw [hL0, List.filterMap_append] at this
    rw [List.filterMap_cons] at this
    simpa only [RawLine.step, List.filterMap_nil, List.append_nil] using this
  obtain ⟨d', hd', hd2⟩ := read_rawLines env (L0 ++ .other glued :: g.rest) (by
      intro l hl'
      rcases List.mem_append.mp hl' with h | h
      · exact hv l (by rw [hL0]; simp [h])
      · rcases List.mem_cons.mp h with rfl | h
        · exact hgv
        · exact hg.rest l h)
    (by
      have : RawLine.sample f.t f.first ∈ L0 := by
        have : RawLine.sample f.t f.first ∈ f.lines := by simp [RawText.lines]
        rw [hL0] at this
        simpa using this
      exact ⟨.sample f.t f.first, by simp [this], f.first, rfl⟩)
    (by
      obtain ⟨b, hb', hb2'⟩ := hf.meta'
      have hm : RawLine.other b ∈ f.lines := by rcases hb' with h | h <;> simp [RawText.lines, h]
      rw [hL0] at hm
      rcases List.mem_append.mp hm with h | h
      · exact ⟨b, by simp [h], hb2'⟩
      · simp only [List.mem_singleton, RawLine.other.injEq] at h
        refine ⟨glued, by simp, ?_⟩
        rw [h] at hb2'
        cases body with
        | nil => exact absurd rfl hbody
        | cons x body => simpa [hglued] using hb2')
    (by
      have : f.lines.length = L0.length + 1 := by rw [hL0]; simp
      simp only [RawText.lines, List.length_append, List.length_cons, List.length_map] at this
      simp only [List.length_append, List.length_cons]
      omega) version hver
  refine ⟨d', by rw [hout]; exact hd', ?_⟩
  rw [hd2, List.filterMap_append, hsteps, List.filterMap_cons]
  simp only [RawLine.step]
  rw [runningSums_append]
  congr 1
  unfold RawText.pressures
  congr 1
  rw [runningSums, List.tail_cons, ← runningSums_shift]
  congr 1
  rw [← htot, RawText.total]
  simp only [List.sum_cons]
  ring

/-- The hypotheses hold for a file that ends with a status line, followed by another one: the pressures 105, 104, 100, 97, 99
become 105, 104, 101, 103. -/
example : fileB.Valid ∧ fileA.Valid ∧ fileB.rest = [.letters 102 108] ++ [.other demoM] ∧ demoM ≠ [] ∧
    fileB.pressures.getLast? = some 104 ∧ demoM.length + (lineD fileA.t (fileA.first - 104)).length ≤ 255 ∧
    readPressures demoCatEnv fileB.text.dropLast fileA.version = some [some 105, some 104] ∧
    demoCatEnv.readSN fileB.text.dropLast = some (bytes "077") ∧
    fileB.pressures ++ fileA.pressures.tail.map (· + (104 - fileA.first)) = [105, 104, 101, 103] :=
  ⟨fileB_valid, fileA_valid, rfl, by decide +kernel, by decide +kernel, by decide +kernel, by decide +kernel, rfl, by decide +kernel⟩

end Gemlog
