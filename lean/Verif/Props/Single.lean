import Verif.Model.Single
import Verif.Props.ReadGemMore
import Verif.Props.Whole
import Verif.Props.Cli
import Verif.Lemmas.GemCat
import Verif.Props.Transcoded

/-!
# C82, C83: converting a single raw file
-/

namespace Gemlog

/-! ## C82: the samples -/

theorem isChain_bounds (l : List Rat) (h : discontinuous l = false) : ∀ x ∈ l, l.head?.getD 0 ≤ x ∧ x ≤ l.getLast?.getD 0 := by
  rw [discontinuous_iff] at h
  have := steady_bounds l (h.imp (by intro a b h; constructor <;> linarith [h.1, h.2]))
  intro x hx
  have := this x hx
  rwa [List.headD_eq_head?_getD, List.getLastD_eq_getLast?] at this

/-- Reading a single file: the data, and the clock in the header covers all samples. -/
theorem readSeveral_single {env : Env} {fit : Fitter} (hfit : ∀ e L rg, env.ops.drift e L rg = calculateDrift fit L rg) {e : Entry}
    {rg : Bool} {version : String} {L : Several Entry} (h : readSeveral env.ops [e] version rg = .ok L) (hd : L.data ≠ []) :
    ∃ row, L.header = [row] ∧ ∀ p ∈ L.data, row.info.startMs ≤ p.1 ∧ p.1 ≤ row.info.endMs := by
  unfold readSeveral at h
  rw [severalLoop] at h
  unfold severalStep at h
  have hro : ∀ row F, readOne env.ops rg version e 0 = (row, .ok F) → discontinuous (F.data.map Prod.fst) = false ∧
      ∃ info, env.ops.drift e F rg = .ok info ∧ row.info = recordedClock rg F info := by
    intro row F hrF
    unfold readOne at hrF
    split at hrF
    · simp at hrF
    · rename_i L' hL'
      split at hrF
      · simp at hrF
      · rename_i hdis
        split at hrF
        · simp at hrF
        · rename_i info hinfo
          simp only at hrF
          split at hrF
          · simp at hrF
          · rename_i sn hsn
            simp only [Prod.mk.injEq, Except.ok.injEq] at hrF
            obtain ⟨h1, h2⟩ := hrF
            subst h2
            refine ⟨by simpa using hdis, info, hinfo, ?_⟩
            rw [← h1]
            unfold recordedClock
            cases rg <;> by_cases hg : L'.gps = [] <;> simp [hg, emptyRow, zeroRow]
  cases hr : readOne env.ops rg version e 0 with
  | mk row out =>
    simp only [hr] at h
    cases out with
    | error x =>
      simp only at h
      split_ifs at h
      simp only [severalLoop, Except.ok.injEq] at h
      subst h
      exact absurd rfl hd
    | ok F =>
      simp only [severalLoop, Except.ok.injEq, List.nil_append] at h
      obtain ⟨h1, info, h2, h3⟩ := hro row F hr
      subst h
      refine ⟨row, rfl, ?_⟩
      intro p hp
      rw [h3]
      have hg : ¬ (rg = true ∧ F.gps = []) := by
        rintro ⟨rfl, hg⟩
        rw [hfit] at h2
        unfold calculateDrift at h2
        simp [hg] at h2
      have hk : recordedClock rg F info = info := by
        unfold recordedClock
        rw [if_neg]
        tauto
      rw [hk]
      rw [hfit] at h2
      have hb := isChain_bounds _ h1 p.1 (List.mem_map.mpr ⟨p, hp, rfl⟩)
      obtain ⟨q, hq⟩ : ∃ q, F.data.head? = some q := by
        cases hF : F.data with
        | nil => simp [hF] at hp
        | cons q l => exact ⟨q, rfl⟩
      obtain ⟨r, hr⟩ : ∃ r, F.data.getLast? = some r := by
        cases hF : F.data with
        | nil => simp [hF] at hp
        | cons q l => exact ⟨_, List.getLast?_eq_some_getLast (by simp)⟩
      obtain ⟨-, -, -, h4⟩ := C64_header fit F rg info h2
      obtain ⟨h5, h6⟩ := h4 q r hq hr
      rw [List.head?_map, List.getLast?_map, hq, hr] at hb
      rw [h5, h6]
      exact hb

theorem single_times (row : HeaderRow) (x : Rat) (h : row.info.startMs ≤ x ∧ x ≤ row.info.endMs) :
    applySegments [row] x = some (applyFit x row.info) := by
  unfold applySegments segmentStep
  simp [h.1, h.2]

/-- **C82.** If `read_gem` selects a single file in one of the current formats and reads it, converting that file on its own gives the
same traces: same times, same samples, with and without GPS required. -/
theorem C82_same_as_read_gem (d : RawDisk) (dir : List Entry) (SN : List Nat) (nums : List Int) (e : Entry) (rg : Bool) (v : String)
    (g : GemData) (hone : findFiles dir SN nums = [e]) (hv : formatVersion (d.content e) = some v)
    (hv4 : v ∈ ["0.85C", "0.9", "0.91", "1.10"]) (h : readGem d.env dir SN nums rg = .ok g) :
    convertOne d.env (some e) rg = .ok g.stream := by
  unfold readGem at h
  rw [hone] at h
  obtain ⟨bad, first, rest, v', w, L, h1, -, h3, h4, h5, h6, -, -, -, -, h7, -⟩ := readFilesAs_ok h
  obtain ⟨rfl, rfl, rfl⟩ : bad = [] ∧ first = e ∧ rest = [] := by
    cases bad with
    | nil => simp at h1; exact ⟨rfl, h1.1.symm, h1.2⟩
    | cons b bad => simp at h1
  have hvv : v' = v := by
    have : d.env.version first = some v := hv
    rw [this] at h3; exact (Option.some.inj h3).symm
  subst hvv
  have hw : w = "0.9" := by
    unfold severalVersion at h4
    rw [if_pos hv4] at h4
    exact (Option.some.inj h4).symm
  subst hw
  obtain ⟨row, hr, hb⟩ := readSeveral_single (fit := d.fit) (fun _ _ _ => rfl) h5 h6
  unfold convertOne
  simp only [h5, if_neg h6, hr]
  have : (L.data.map fun p => (p.1, p.2, some (applyFit p.1 row.info))) = timedData L.data L.header := by
    unfold timedData
    apply List.map_congr_left
    intro p hp
    rw [hr, single_times row p.1 (hb p hp)]
  rw [this, h7]

/-- **C82, the other direction.** If the file can be converted on its own, `read_gem` reads the same traces from it, unless the search for
breaks in the GPS times or the look-up of the serial number fails: neither is made for single files. -/
theorem C82_read_gem_too (d : RawDisk) (dir : List Entry) (SN : List Nat) (nums : List Int) (e : Entry) (rg : Bool) (v : String)
    (s : List Trace) (hone : findFiles dir SN nums = [e]) (hv : formatVersion (d.content e) = some v)
    (hv4 : v ∈ ["0.85C", "0.9", "0.91", "1.10"]) (h : convertOne d.env (some e) rg = .ok s) :
    (∃ g, readGem d.env dir SN nums rg = .ok g ∧ g.stream = s) ∨ readGem d.env dir SN nums rg = .error .corrupt ∨
      ∃ x, bitweightInfo SN (d.adc e) (bytes "Pa") = .error x ∧ readGem d.env dir SN nums rg = .error x := by
  unfold convertOne at h
  simp only at h
  split at h
  · simp at h
  · rename_i L hL
    split_ifs at h with hd
    obtain ⟨row, hr, hb⟩ := readSeveral_single (fit := d.fit) (fun _ _ _ => rfl) hL hd
    simp only [hr] at h
    have ht : (L.data.map fun p => (p.1, p.2, some (applyFit p.1 row.info))) = timedData L.data L.header := by
      unfold timedData
      apply List.map_congr_left
      intro p hp
      rw [hr, single_times row p.1 (hb p hp)]
    rw [ht] at h
    split at h
    · simp at h
    · rename_i st hst
      simp only [Except.ok.injEq] at h
      subst h
      have hfr : firstReadable d.env [e] = some ([e], v, e) := by
        rw [firstReadable]
        have : d.env.version e = some v := hv
        rw [this]
      have hsv : severalVersion v = some "0.9" := by unfold severalVersion; rw [if_pos hv4]
      unfold readGem
      rw [hone]
      simp only
      unfold readFilesAs
      simp only [hfr, hsv, hL, if_neg hd]
      have e1 : ∀ G : List Fix, (if L.gps = [] then { L with gps := G } else L).data = L.data := by intro G; split_ifs <;> rfl
      have e2 : ∀ G : List Fix, (if L.gps = [] then { L with gps := G } else L).header = L.header := by intro G; split_ifs <;> rfl
      unfold assignTimes
      rw [e1, e2]
      cases hbk : findBreaks d.env.now (L.data.map Prod.fst) (if L.gps = [] then { L with gps := [zeroFix] } else L).gps with
      | none => right; left; rfl
      | some b =>
        simp only
        have hsp : d.env.spline = d.spline := rfl
        rw [hst]
        simp only
        have ha : d.env.adc e = d.adc e := rfl
        rw [ha]
        cases hbw : bitweightInfo SN (d.adc e) (bytes "Pa") with
        | error x => right; right; exact ⟨x, rfl, rfl⟩
        | ok b => left; exact ⟨_, rfl, rfl⟩

/-- A recorded file of four samples meets the hypotheses; converting it gives one trace of three samples. -/
example : ∃ tr, convertOne demoDisk.env (some ⟨bytes "FILE0001.012", 500, .str (bytes "012")⟩) true = .ok [tr] ∧ tr.data.length = 3 := by
  have hrec : trueRecord 1577836800 (1024 / 1000000) [demoLog] =
    [(1577836800 + 1024 / 1000000 * (0 + 893 / 100), 100), (1577836800 + 1024 / 1000000 * (10 + 893 / 100), 95),
     (1577836800 + 1024 / 1000000 * (21 + 893 / 100), 98), (1577836800 + 1024 / 1000000 * (31 + 893 / 100), 98)] := by decide +kernel
  obtain ⟨g, tr, h1, h2, _, h4, _⟩ := C65_gapless demoDisk [⟨bytes "FILE0001.012", 500, .str (bytes "012")⟩] (bytes "012") [1] (fun _ => demoLog)
    1577836800 (1024 / 1000000) ⟨bytes "FILE0001.012", 500, .str (bytes "012")⟩ [] (by decide +kernel) (fun _ _ => rfl) demo_clean "0.91"
    (by decide) ⟨_, _, rfl, congrArg LogLine.other (by decide +kernel)⟩ (fun _ _ => ⟨_, rfl⟩) 12 (by decide +kernel) (specsOf (7 / 10)) (by decide +kernel) (.inl rfl)
    idealFit_reproduces idealFit_line _ rfl (1577836800 + 1024 / 1000000 * (0 + 893 / 100)) (1577836800 + 1024 / 1000000 * (31 + 893 / 100))
    (by rw [List.map_singleton, hrec]; rfl) (by rw [List.map_singleton, hrec]; rfl) (by norm_num)
    (by rw [List.map_singleton, hrec]; decide +kernel) (fun _ => 7)
    (by rw [List.map_singleton, hrec]; rfl)
  have := C82_same_as_read_gem demoDisk _ _ _ ⟨bytes "FILE0001.012", 500, .str (bytes "012")⟩ true "0.91" g (by decide +kernel)
    (by change formatVersion (textOf demoLog) = _; decide +kernel) (by decide) h1
  refine ⟨tr, by rw [this, h2], ?_⟩
  have : ⌊((1577836800 + 1024 / 1000000 * (31 + 893 / 100)) - (1577836800 + 1024 / 1000000 * (0 + 893 / 100)) : Rat) * 100⌋ = 3 := by
    decide +kernel
  rw [this] at h4
  exact_mod_cast h4

/-- What is done with a file depends only on what the reader returns for it, and on whether its serial number can be read. -/
theorem convertOne_congr (d : RawDisk) (e e' : Entry) (rg : Bool) (hread : d.readSingle e 0 rg "0.9" = d.readSingle e' 0 rg "0.9")
    (hsn : d.readSN e = d.readSN e') : convertOne d.env (some e) rg = convertOne d.env (some e') rg := by
  have hv : readVersioned d.env.ops rg "0.9" e 0 = readVersioned d.env.ops rg "0.9" e' 0 := hread
  have hs : d.env.ops.readSN e = d.env.ops.readSN e' := hsn
  have hone : readOne d.env.ops rg "0.9" e 0 = readOne d.env.ops rg "0.9" e' 0 := by
    unfold readOne
    rw [hv, hs]
    rfl
  unfold convertOne readSeveral
  simp only [severalLoop, severalStep, hone]
  cases readOne d.env.ops rg "0.9" e' 0 with
  | mk row out =>
    cases out with
    | ok F => rfl
    | error x =>
      simp only
      split_ifs <;> rfl

/-- **C82, transcoded files.** A file written by the transcoder, which `read_gem` refuses (C80), is converted on its own to the same traces as the
original, if the fast reader reads the original. -/
theorem C82_transcoded (d : RawDisk) (e e' : Entry) (version : String) (hver : version ∈ ["0.85C", "0.9", "0.91"]) (rest : List Nat)
    (hrest : ∀ b ∈ rest, b ≠ 10) (hlen : rest.length ≤ 240) (src : List SrcLine) (hsrc : ∀ s ∈ src, s.Valid)
    (hc : d.content e = rawText rest src) (hc' : some (d.content e') = transcode version (rawLines rest src))
    (hsn : d.readSN e = d.readSN e') (rg : Bool) (D : FileData)
    (hfast : readSingle d.emptyRaises ⟨(readWithCython d.buf0 d.buf1 rg (some (d.content e))).map cythonTable, .error .other, .error .other⟩
      0 rg "0.9" = .ok D) :
    convertOne d.env (some e') rg = convertOne d.env (some e) rg := by
  obtain ⟨out, h1, h2⟩ := C80_read_single version hver rest hrest hlen src hsrc
  rw [hc] at hfast
  obtain ⟨h3, h4⟩ := h2 _ _ _ _ _ d.buf0 d.buf1 _ hfast (d.pandas e' rg) (d.old e' rg) (d.pandas e rg) (d.old e rg)
  rw [← hc', Option.some.injEq] at h1
  refine (convertOne_congr d e e' rg ?_ hsn).symm
  unfold RawDisk.readSingle
  rw [h1, hc, h3, h4]

/-- **C82, violated: old formats.** The format of the file is not looked at. For files of the formats 0.8 and 0.85 `read_gem` uses a reader of
their own, and what that reader returns makes no difference here. -/
theorem C82_violated_old_format (d : RawDisk) (dir : List Entry) (SN : List Nat) (nums : List Int) (e : Entry) (rg : Bool) (v : String)
    (hone : findFiles dir SN nums = [e]) (hv : formatVersion (d.content e) = some v) (hv2 : v ∈ ["0.8", "0.85"])
    (old : Entry → Bool → Except Exc Table) :
    convertOne { d with old := old }.env (some e) rg = convertOne d.env (some e) rg ∧
    ((∀ f b, old f b = .error .corrupt) → ∀ g, readGem { d with old := old }.env dir SN nums rg ≠ .ok g) := by
  constructor
  · rfl
  · intro hold g hg
    unfold readGem at hg
    rw [hone] at hg
    obtain ⟨bad, first, rest, v', w, L, h1, -, h3, h4, h5, h6, -⟩ := readFilesAs_ok hg
    obtain ⟨rfl, rfl, rfl⟩ : bad = [] ∧ first = e ∧ rest = [] := by
      cases bad with
      | nil => simp at h1; exact ⟨rfl, h1.1.symm, h1.2⟩
      | cons b bad => simp at h1
    have hvv : v' = v := by
      have : ({ d with old := old } : RawDisk).env.version first = some v := hv
      rw [this] at h3; exact (Option.some.inj h3).symm
    subst hvv
    have hw : w = v' := by
      unfold severalVersion at h4
      simp only [List.mem_cons, List.not_mem_nil, or_false] at hv2
      rcases hv2 with rfl | rfl <;> simp at h4 <;> exact h4.symm
    subst hw
    have hr : readOne ({ d with old := old } : RawDisk).env.ops rg w first 0 = (emptyRow, .error .corrupt) := by
      have hs : ({ d with old := old } : RawDisk).readSingle first 0 rg w = .error .corrupt := by
        unfold RawDisk.readSingle readSingle
        simp only [List.mem_cons, List.not_mem_nil, or_false] at hv2
        rw [if_neg (by rcases hv2 with rfl | rfl <;> decide), tryReaders]
        simp only [hold]
        rfl
      have : readVersioned ({ d with old := old } : RawDisk).env.ops rg w first 0 = .error .corrupt := by
        unfold readVersioned
        simp only [List.mem_cons, List.not_mem_nil, or_false] at hv2
        rw [if_neg (by rcases hv2 with rfl | rfl <;> decide), if_pos (by rcases hv2 with rfl | rfl <;> decide)]
        exact hs
      unfold readOne
      rw [this]; rfl
    unfold readSeveral at h5
    rw [severalLoop] at h5
    unfold severalStep at h5
    simp only [hr] at h5
    rw [if_pos (by decide)] at h5
    simp only [severalLoop, Except.ok.injEq] at h5
    subst h5
    exact h6 rfl

/-- A file of the format 0.85. -/
example : formatVersion (bytes "#GemCSV0.85\nD5,3\n") = some "0.85" ∧
    findFiles [⟨bytes "FILE0001.012", 500, .str (bytes "012")⟩] (bytes "012") [1] = [⟨bytes "FILE0001.012", 500, .str (bytes "012")⟩] := by
  constructor <;> decide +kernel

/-- **C82, violated: the reason given.** Whatever keeps the file from being read, be it damaged, empty or its clock inadequate, the exception
raised says that there are no GPS data, even if GPS data are not required. -/
theorem C82_violated_reason (d : RawDisk) (e : Entry) (rg : Bool) (x : Exc) (hx : x.isException = true)
    (h : d.readSingle e 0 rg "0.9" = .error x ∨
      ∃ D, d.readSingle e 0 rg "0.9" = .ok D ∧ D.data ≠ [] ∧ (∀ p ∈ D.data, 0 ≤ p.1) ∧
        (¬ (D.data.map Prod.fst).IsChain (fun a b => a ≤ b ∧ b ≤ a + 1000) ∨ calculateDrift d.fit D rg = .error x)) :
    convertOne d.env (some e) rg = .error .noGPS := by
  have key : ∃ y : Exc, y.isException = true ∧ readOne d.env.ops rg "0.9" e 0 = (emptyRow, .error y) := by
    rcases h with h | ⟨D, h1, h2, h3, h4⟩
    · refine ⟨x, hx, ?_⟩
      have : readVersioned d.env.ops rg "0.9" e 0 = .error x := h
      unfold readOne
      rw [this]; rfl
    · have hv : readVersioned d.env.ops rg "0.9" e 0 = .ok D := h1
      have ha : alignStart D 0 = .ok D := by
        unfold alignStart
        cases hD : D.data with
        | nil => exact absurd hD h2
        | cons p l =>
          simp only
          rw [if_neg (by have := h3 p (by rw [hD]; simp); linarith)]
      unfold readOne
      rw [hv, show (Except.ok D : Except Exc FileData).bind (fun L => alignStart L 0) = .ok D from ha]
      simp only
      by_cases hd : discontinuous (D.data.map Prod.fst) = true
      · exact ⟨.corrupt, rfl, by rw [if_pos hd]⟩
      · rcases h4 with h4 | h4
        · exact absurd ((discontinuous_iff _).mp (by simpa using hd)) h4
        · refine ⟨x, hx, ?_⟩
          rw [if_neg hd]
          have : d.env.ops.drift e D rg = .error x := h4
          rw [this]
  obtain ⟨y, hy, hr⟩ := key
  unfold convertOne readSeveral
  simp only [severalLoop, severalStep, hr, if_pos hy, if_pos]
  rfl

/-- A file that cannot be read, with complete GPS data not being required: the message blames the GPS data. -/
example : convertOne { demoDisk with content := fun _ => bytes "#GemCSV0.91\nS,012\n" }.env (some ⟨bytes "FILE0001.012", 500, .str (bytes "012")⟩) false
    = .error .noGPS :=
  C82_violated_reason _ _ _ .emptyRaw rfl (.inl (by
    unfold RawDisk.readSingle readSingle
    rw [if_pos (by decide)]
    have h : readWithCython [] [] false (some (bytes "#GemCSV0.91\nS,012\n")) = .error .emptyRaw := by decide +kernel
    change tryReaders false 0 false "0.9" [(readWithCython [] [] false (some (bytes "#GemCSV0.91\nS,012\n"))).map cythonTable, .error .other] = _
    rw [h]
    rfl))

/-! ## C83: the command line -/

deriving instance DecidableEq for Word

/-- The options of `gemconvert_single`: `-h` and `-f` have no value; `-i` and `-o` have one. -/
def Word.ValidSingle : Word → Prop
  | .flag c => c ∈ bytes "hf"
  | .value c _ => c ∈ bytes "io"
  | .glued c a => c ∈ bytes "io" ∧ a ≠ []

theorem single_flag {c : Nat} (h : c ∈ bytes "hf") : shortHasArg c singleShort = some false ∧ c ≠ 45 := by
  rw [show bytes "hf" = [104, 102] by decide +kernel] at h
  simp only [List.mem_cons, List.not_mem_nil, or_false] at h
  rcases h with rfl | rfl <;> decide +kernel

theorem single_value {c : Nat} (h : c ∈ bytes "io") : shortHasArg c singleShort = some true ∧ c ≠ 45 := by
  rw [show bytes "io" = [105, 111] by decide +kernel] at h
  simp only [List.mem_cons, List.not_mem_nil, or_false] at h
  rcases h with rfl | rfl <;> decide +kernel

theorem getopt_single {tail : List (List Nat)} {R : Option (List (List Nat × List Nat))}
    (hstop : ∀ fuel, tail.length ≤ fuel → getoptGo singleShort [] fuel tail = R) :
    ∀ (ws : List Word) (fuel : Nat), (∀ w ∈ ws, w.ValidSingle) → (ws.flatMap Word.typed ++ tail).length ≤ fuel →
      getoptGo singleShort [] fuel (ws.flatMap Word.typed ++ tail) = R.map fun r => ws.map Word.meant ++ r := by
  intro ws
  induction ws with
  | nil =>
    intro fuel _ hl
    refine (hstop fuel (by simpa using hl)).trans ?_
    cases R <;> rfl
  | cons w ws ih =>
    intro fuel hv hl
    have hw := hv w (by simp)
    have hrest := fun f hf => ih f (fun x hx => hv x (by simp [hx])) hf
    rw [List.flatMap_cons, List.append_assoc] at hl ⊢
    cases w with
    | flag c =>
      obtain ⟨h1, h2⟩ := single_flag hw
      simp only [Word.typed, List.length_append, List.length_cons, List.length_nil] at hl
      obtain ⟨f, rfl⟩ : ∃ f, fuel = f + 1 := ⟨fuel - 1, by omega⟩
      simp only [Word.typed, List.cons_append, List.nil_append]
      rw [getoptGo_short _ _ _ _ _ _ h2, doShorts, h1]
      simp only [doShorts, Option.map_some]
      rw [hrest f (by rw [List.length_append]; omega)]
      cases R <;> rfl
    | value c a =>
      obtain ⟨h1, h2⟩ := single_value hw
      simp only [Word.typed, List.length_append, List.length_cons, List.length_nil] at hl
      obtain ⟨f, rfl⟩ : ∃ f, fuel = f + 1 := ⟨fuel - 1, by omega⟩
      simp only [Word.typed, List.cons_append, List.nil_append]
      rw [getoptGo_short _ _ _ _ _ _ h2, doShorts, h1]
      simp only [takeValue, Option.map_some]
      rw [hrest f (by rw [List.length_append]; omega)]
      cases R <;> rfl
    | glued c a =>
      obtain ⟨h0, ha⟩ := hw
      obtain ⟨h1, h2⟩ := single_value h0
      simp only [Word.typed, List.length_append, List.length_cons, List.length_nil] at hl
      obtain ⟨f, rfl⟩ : ∃ f, fuel = f + 1 := ⟨fuel - 1, by omega⟩
      simp only [Word.typed, List.cons_append, List.nil_append]
      rw [getoptGo_short _ _ _ _ _ _ h2, doShorts, h1]
      cases a with
      | nil => exact absurd rfl ha
      | cons x a =>
        simp only [takeValue, Option.map_some]
        rw [hrest f (by rw [List.length_append]; omega)]
        cases R <;> rfl

theorem applySingle_flag {c : Nat} (h : c ∈ bytes "hf") (o : SingleOpts) :
    applySingle o ([45, c], []) = if c = 104 then none else some { o with force := true } := by
  rw [show bytes "hf" = [104, 102] by decide +kernel] at h
  simp only [List.mem_cons, List.not_mem_nil, or_false] at h
  have e1 : [bytes "-h", bytes "--help"] = [[45, 104], [45, 45, 104, 101, 108, 112]] := by decide +kernel
  have e2 : [bytes "-i", bytes "--input_file"] = [[45, 105], 45 :: 45 :: bytes "input_file"] := by decide +kernel
  have e3 : [bytes "-o", bytes "--output_file"] = [[45, 111], 45 :: 45 :: bytes "output_file"] := by decide +kernel
  have e4 : [bytes "-f", bytes "--force_conversion"] = [[45, 102], 45 :: 45 :: bytes "force_conversion"] := by decide +kernel
  unfold applySingle
  rw [e1, e2, e3, e4]
  rcases h with rfl | rfl <;> simp

theorem applySingle_value {c : Nat} (h : c ∈ bytes "io") (a : List Nat) (o : SingleOpts) :
    applySingle o ([45, c], a) = some (if c = 105 then { o with input := a } else { o with output := some a }) := by
  rw [show bytes "io" = [105, 111] by decide +kernel] at h
  simp only [List.mem_cons, List.not_mem_nil, or_false] at h
  have e1 : [bytes "-h", bytes "--help"] = [[45, 104], [45, 45, 104, 101, 108, 112]] := by decide +kernel
  have e2 : [bytes "-i", bytes "--input_file"] = [[45, 105], 45 :: 45 :: bytes "input_file"] := by decide +kernel
  have e3 : [bytes "-o", bytes "--output_file"] = [[45, 111], 45 :: 45 :: bytes "output_file"] := by decide +kernel
  unfold applySingle
  rw [e1, e2, e3]
  rcases h with rfl | rfl <;> simp

theorem typedValue_cons (w : Word) (ws : List Word) (c : Nat) :
    typedValue (w :: ws) c = match typedValue ws c with
      | some v => some v
      | none => w.valueFor c := by
  unfold typedValue
  rw [List.filterMap_cons]
  cases h : w.valueFor c with
  | none => cases (ws.filterMap (Word.valueFor c)).getLast? <;> rfl
  | some a =>
    simp only [List.getLast?_cons]
    cases (ws.filterMap (Word.valueFor c)).getLast? <;> rfl

theorem applySingles_typed : ∀ (ws : List Word), (∀ w ∈ ws, w.ValidSingle) → ∀ o : SingleOpts,
    applySingles o (ws.map Word.meant) = if Word.flag 104 ∈ ws then none else
      some ⟨(typedValue ws 105).getD o.input, (typedValue ws 111).or o.output, o.force || decide (Word.flag 102 ∈ ws)⟩ := by
  intro ws
  induction ws with
  | nil => intro _ o; simp [applySingles, typedValue]
  | cons w ws ih =>
    intro hv o
    have hw := hv w (by simp)
    have ih := ih fun x hx => hv x (by simp [hx])
    rw [List.map_cons, applySingles, typedValue_cons, typedValue_cons]
    cases w with
    | flag c =>
      rw [Word.meant, applySingle_flag hw]
      by_cases h1 : c = 104
      · subst h1; simp
      · have h2 : c = 102 := by
          have hw' : c ∈ bytes "hf" := hw
          rw [show bytes "hf" = [104, 102] by decide +kernel] at hw'
          simp only [List.mem_cons, List.not_mem_nil, or_false] at hw'
          tauto
        subst h2
        rw [if_neg h1]
        dsimp only
        rw [ih]
        by_cases h3 : Word.flag 104 ∈ ws
        · rw [if_pos h3, if_pos (by simp [h3])]
        · rw [if_neg h3, if_neg (by simp [h3])]
          cases typedValue ws 105 <;> cases typedValue ws 111 <;> simp [Word.valueFor]
    | value c a =>
      have hw' : c ∈ bytes "io" := hw
      rw [Word.meant, applySingle_value hw']
      rw [show bytes "io" = [105, 111] by decide +kernel] at hw'
      simp only [List.mem_cons, List.not_mem_nil, or_false] at hw'
      simp only [ih, List.mem_cons, reduceCtorEq, false_or]
      by_cases h3 : Word.flag 104 ∈ ws
      · simp only [if_pos h3]
      · simp only [if_neg h3]
        rcases hw' with rfl | rfl <;> cases typedValue ws 105 <;> cases typedValue ws 111 <;> simp [Word.valueFor]
    | glued c a =>
      have hw' : c ∈ bytes "io" := hw.1
      rw [Word.meant, applySingle_value hw']
      rw [show bytes "io" = [105, 111] by decide +kernel] at hw'
      simp only [List.mem_cons, List.not_mem_nil, or_false] at hw'
      simp only [ih, List.mem_cons, reduceCtorEq, false_or]
      by_cases h3 : Word.flag 104 ∈ ws
      · simp only [if_pos h3]
      · simp only [if_neg h3]
        rcases hw' with rfl | rfl <;> cases typedValue ws 105 <;> cases typedValue ws 111 <;> simp [Word.valueFor]

/-- **C83, options.** The options `-i`, `-o`, `-f` may be given in every order and number, values glued or not; of several values the last
counts. The file after `-i` is converted, GPS data being required unless `-f` is given. With `-h` the help text is printed, and nothing
else is done. -/
theorem C83_options (s : SingleEnv) (ws : List Word) (h : ∀ w ∈ ws, w.ValidSingle) :
    gemconvertSingle s (ws.flatMap Word.typed) =
      if Word.flag 104 ∈ ws then .help
      else convertSingle s ((typedValue ws 105).getD []) (typedValue ws 111) (decide (Word.flag 102 ∉ ws)) := by
  have hg : getopt singleShort [] (ws.flatMap Word.typed) = some (ws.map Word.meant) := by
    have := getopt_single (tail := []) (R := some []) (fun fuel _ => by cases fuel <;> rfl) ws _ h (Nat.le_refl _)
    rw [List.append_nil] at this
    unfold getopt
    rw [this]; simp
  unfold gemconvertSingle
  rw [hg]
  simp only [applySingles_typed ws h]
  split_ifs with h1
  · rfl
  · simp

/-- `gemconvert_single -fi a -o x.mseed -i FILE0001.012` converts the second file. -/
example (s : SingleEnv) : gemconvertSingle s [bytes "-f", bytes "-ia", bytes "-o", bytes "x.sac", bytes "-i", bytes "FILE0001.012"]
    = convertSingle s (bytes "FILE0001.012") (some (bytes "x.sac")) false := by
  have h := C83_options s [.flag 102, .glued 105 (bytes "a"), .value 111 (bytes "x.sac"), .value 105 (bytes "FILE0001.012")] (by
    intro w hw
    simp only [List.mem_cons, List.not_mem_nil, or_false] at hw
    rcases hw with rfl | rfl | rfl | rfl
    · change 102 ∈ bytes "hf"; decide +kernel
    · exact ⟨by decide +kernel, by decide +kernel⟩
    · change 111 ∈ bytes "io"; decide +kernel
    · change 105 ∈ bytes "io"; decide +kernel)
  rw [if_neg (by simp)] at h
  have e : [bytes "-f", bytes "-ia", bytes "-o", bytes "x.sac", bytes "-i", bytes "FILE0001.012"] =
      [Word.flag 102, .glued 105 (bytes "a"), .value 111 (bytes "x.sac"), .value 105 (bytes "FILE0001.012")].flatMap Word.typed := by
    decide +kernel
  rw [e, h]
  simp [typedValue, Word.valueFor]

theorem takeWhile_append_stop {α : Type} (p : α → Bool) (l : List α) (hl : ∀ x ∈ l, p x = true) (y : α) (hy : p y = false) (r : List α) :
    (l ++ y :: r).takeWhile p = l := by
  induction l with
  | nil => simp [hy]
  | cons x l ih =>
    simp only [List.cons_append]
    rw [List.takeWhile_cons, if_pos (hl x (by simp)), ih fun z hz => hl z (by simp [hz])]

/-- The last component of a path. -/
theorem baseName_spec (dir name : List Nat) (hn : 47 ∉ name) : baseName (dir ++ 47 :: name) = name ∧ baseName name = name := by
  have hr : ∀ x ∈ name.reverse, (fun c : Nat => decide (c ≠ 47)) x = true := by
    intro x hx
    simp only [List.mem_reverse] at hx
    simp only [decide_eq_true_eq]
    rintro rfl
    exact hn hx
  constructor
  · unfold baseName
    rw [List.reverse_append, List.reverse_cons, List.append_assoc, List.singleton_append,
      takeWhile_append_stop _ _ hr 47 (by decide), List.reverse_reverse]
  · unfold baseName
    rw [show name.reverse.takeWhile (fun c : Nat => decide (c ≠ 47)) = name.reverse from ?_, List.reverse_reverse]
    generalize name.reverse = l at hr
    induction l with
    | nil => rfl
    | cons x l ih => rw [List.takeWhile_cons, if_pos (hr x (by simp)), ih fun y hy => hr y (by simp [hy])]

/-- The extension of a file name. -/
theorem extensionOf_spec (dir stem ext : List Nat) (hs : 47 ∉ stem) (he : 47 ∉ ext) (he2 : 46 ∉ ext) (hdot : ∃ c ∈ stem, c ≠ 46) :
    extensionOf (stem ++ 46 :: ext) = ext ∧ extensionOf (dir ++ 47 :: (stem ++ 46 :: ext)) = ext := by
  have hb := baseName_spec dir (stem ++ 46 :: ext) (by simp [hs, he])
  have key : ∀ path, baseName path = stem ++ 46 :: ext → extensionOf path = ext := by
    intro path hp
    unfold extensionOf
    simp only [hp]
    have ht : ((stem ++ 46 :: ext).reverse.takeWhile fun c => decide (c ≠ 46)).reverse = ext := by
      rw [List.reverse_append, List.reverse_cons, List.append_assoc, List.singleton_append,
        takeWhile_append_stop _ _ _ 46 (by decide), List.reverse_reverse]
      intro x hx
      simp only [List.mem_reverse] at hx
      simp only [decide_eq_true_eq]
      rintro rfl
      exact he2 hx
    rw [ht]
    have hl : (stem ++ 46 :: ext).length - ext.length - 1 = stem.length := by simp; omega
    rw [hl, List.take_left, if_pos]
    refine ⟨by simp, ?_⟩
    obtain ⟨c, h1, h2⟩ := hdot
    exact List.any_eq_true.mpr ⟨c, h1, by simpa using h2⟩
  exact ⟨key _ hb.2, key _ hb.1⟩

/-- A name without a dot has no extension. -/
theorem extensionOf_none (dir name : List Nat) (hn : 47 ∉ name) (hd : 46 ∉ name) : extensionOf name = [] ∧ extensionOf (dir ++ 47 :: name) = [] := by
  have hb := baseName_spec dir name hn
  constructor
  · unfold extensionOf; simp only [hb.2]; rw [if_neg (by tauto)]
  · unfold extensionOf; simp only [hb.1]; rw [if_neg (by tauto)]

/-- **C83, default output.** Without `-o`, the traces of a file `<dir>/<name>` are written, in the format MSEED, to `<name>.mseed` in the
current directory, whatever its own extension. -/
theorem C83_default_output (s : SingleEnv) (dir name : List Nat) (hn : 47 ∉ name) (hne : ∃ c ∈ name, c ≠ 46) (rg : Bool)
    (hw : s.writable (bytes "MSEED") = true) (stream : List Trace) (hst : stream ≠ []) :
    (convertOne s.env (s.file name) rg = .ok stream → convertSingle s name none rg = .written (name ++ bytes ".mseed") (bytes "MSEED") stream) ∧
    (convertOne s.env (s.file (dir ++ 47 :: name)) rg = .ok stream →
      convertSingle s (dir ++ 47 :: name) none rg = .written (name ++ bytes ".mseed") (bytes "MSEED") stream) := by
  have hb := baseName_spec dir name hn
  have hx := (extensionOf_spec [] name (bytes "mseed") hn (by decide +kernel) (by decide +kernel) hne).1
  have hdot : (46 :: bytes "mseed") = bytes ".mseed" := by decide +kernel
  rw [hdot] at hx
  have hu : upper (bytes "mseed") = bytes "MSEED" := by decide +kernel
  constructor <;> intro h <;> unfold convertSingle singleName <;>
    simp only [h, if_neg hst, Option.getD_none, hb, hx, hu, hw, if_true]

/-- **C83, given output.** With `-o <stem>.<ext>`, the traces go to that file, in the format named by the extension, in either case. -/
theorem C83_given_output (s : SingleEnv) (input dir stem ext : List Nat) (hs : 47 ∉ stem) (he : 47 ∉ ext) (he2 : 46 ∉ ext)
    (hdot : ∃ c ∈ stem, c ≠ 46) (rg : Bool) (hw : s.writable (upper ext) = true) (stream : List Trace) (hst : stream ≠ [])
    (h : convertOne s.env (s.file input) rg = .ok stream) :
    convertSingle s input (some (stem ++ 46 :: ext)) rg = .written (stem ++ 46 :: ext) (upper ext) stream ∧
    convertSingle s input (some (dir ++ 47 :: (stem ++ 46 :: ext))) rg = .written (dir ++ 47 :: (stem ++ 46 :: ext)) (upper ext) stream := by
  obtain ⟨h1, h2⟩ := extensionOf_spec dir stem ext hs he he2 hdot
  constructor <;> unfold convertSingle singleName <;>
    simp only [h, if_neg hst, Option.getD_some, h1, h2, hw, if_true]

/-- **C83, nothing else is written.** A file is written only if the conversion of the file after `-i` succeeds. -/
theorem C83_written_iff (s : SingleEnv) (input : List Nat) (output : Option (List Nat)) (rg : Bool) (name format : List Nat) (stream : List Trace) :
    convertSingle s input output rg = .written name format stream ↔
      convertOne s.env (s.file input) rg = .ok stream ∧ stream ≠ [] ∧ name = output.getD (baseName input ++ bytes ".mseed") ∧
        format = upper (extensionOf name) ∧ s.writable format = true := by
  unfold convertSingle singleName
  cases h : convertOne s.env (s.file input) rg with
  | error x => simp
  | ok st =>
    simp only
    split_ifs with h1 h2
    · subst h1
      simp only [Except.ok.injEq, false_iff]
      rintro ⟨rfl, h, -⟩
      exact h rfl
    · simp only [SingleResult.written.injEq, Except.ok.injEq]
      constructor
      · rintro ⟨rfl, rfl, rfl⟩; exact ⟨rfl, h1, rfl, rfl, h2⟩
      · rintro ⟨rfl, -, rfl, rfl, -⟩; exact ⟨rfl, rfl, rfl⟩
    · simp only [Except.ok.injEq, false_iff]
      rintro ⟨rfl, -, rfl, rfl, h⟩
      exact h2 h

/-- **C83, violated: long options.** The documented options `--input_file`, `--output_file`, `--force-conversion` and `--help`, and every other
long option, end the program with exit status 2, whatever options precede. -/
theorem C83_violated_long (s : SingleEnv) (ws : List Word) (h : ∀ w ∈ ws, w.ValidSingle) (name : List Nat) (hn : name ≠ [])
    (tail : List (List Nat)) :
    gemconvertSingle s (ws.flatMap Word.typed ++ (45 :: 45 :: name) :: tail) = .usage ∧ SingleResult.usage.status = 2 := by
  have hg : getopt singleShort [] (ws.flatMap Word.typed ++ (45 :: 45 :: name) :: tail) = none := by
    have := getopt_single (tail := (45 :: 45 :: name) :: tail) (R := none) (fun fuel hf => by
      obtain ⟨f, rfl⟩ : ∃ f, fuel = f + 1 := ⟨fuel - 1, by simp only [List.length_cons] at hf; omega⟩
      rw [getoptGo, if_neg (by simp [hn]), if_pos (by simp)]
      simp [doLongs, longHasArgs]) ws _ h (Nat.le_refl _)
    unfold getopt
    rw [this]; rfl
  refine ⟨?_, rfl⟩
  unfold gemconvertSingle
  rw [hg]

/-- **C83, violated: the option of the usage line.** The usage line shows `-g <gps_required>`; the option is refused. -/
theorem C83_violated_gps_option (s : SingleEnv) (ws : List Word) (h : ∀ w ∈ ws, w.ValidSingle) (value : List Nat) (tail : List (List Nat)) :
    gemconvertSingle s (ws.flatMap Word.typed ++ bytes "-g" :: value :: tail) = .usage := by
  have hg : getopt singleShort [] (ws.flatMap Word.typed ++ bytes "-g" :: value :: tail) = none := by
    have := getopt_single (tail := bytes "-g" :: value :: tail) (R := none) (fun fuel hf => by
      obtain ⟨f, rfl⟩ : ∃ f, fuel = f + 1 := ⟨fuel - 1, by simp only [List.length_cons] at hf; omega⟩
      rw [show bytes "-g" = 45 :: 103 :: [] by decide +kernel, getoptGo_short _ _ _ _ _ _ (by decide), doShorts,
        show shortHasArg 103 singleShort = none by decide +kernel]) ws _ h (Nat.le_refl _)
    unfold getopt
    rw [this]; rfl
  unfold gemconvertSingle
  rw [hg]

/-- **C83, violated: output names.** The usage line asks for `-o <outputdir>`, but the name of a directory, or any name without extension, is
not accepted: although the file has been read, nothing is written. -/
theorem C83_violated_output (s : SingleEnv) (input dir name : List Nat) (rg : Bool) (hn : 47 ∉ name) (hd : 46 ∉ name)
    (hw : s.writable [] = false) :
    (∃ x, convertSingle s input (some (dir ++ 47 :: name)) rg = .failed x) ∧ ∃ x, convertSingle s input (some name) rg = .failed x := by
  obtain ⟨h1, h2⟩ := extensionOf_none dir name hn hd
  have key : ∀ path, extensionOf path = [] → ∃ x, convertSingle s input (some path) rg = .failed x := by
    intro path hp
    have hu : upper (extensionOf path) = [] := by rw [hp]; rfl
    unfold convertSingle singleName
    cases convertOne s.env (s.file input) rg with
    | error x => exact ⟨x, rfl⟩
    | ok st =>
      simp only [Option.getD_some, hu]
      by_cases hst : st = []
      · exact ⟨.other, by rw [if_pos hst]⟩
      · exact ⟨.other, by rw [if_neg hst, if_neg (by simp [hw])]⟩
  exact ⟨key _ h2, key _ h1⟩

/-- **C83, violated: exit status.** If the conversion fails with an exception, because the file does not exist, say, the exit status is
0, as if it had succeeded. -/
theorem C83_violated_status (s : SingleEnv) (ws : List Word) (h : ∀ w ∈ ws, w.ValidSingle) (hh : Word.flag 104 ∉ ws)
    (hmiss : s.file ((typedValue ws 105).getD []) = none) :
    gemconvertSingle s (ws.flatMap Word.typed) = .failed .missingRaw ∧ (gemconvertSingle s (ws.flatMap Word.typed)).status = 0 := by
  have : gemconvertSingle s (ws.flatMap Word.typed) = .failed .missingRaw := by
    rw [C83_options s ws h, if_neg hh]
    unfold convertSingle convertOne
    rw [hmiss]
    rfl
  rw [this]
  exact ⟨rfl, rfl⟩

/-- The directory `raw` with one file. -/
noncomputable def demoSingle : SingleEnv :=
  ⟨demoDisk.env, fun p => if p = bytes "raw/FILE0001.012" then some ⟨bytes "FILE0001.012", 500, .str (bytes "012")⟩ else none,
    fun f => f ∈ [bytes "MSEED", bytes "SAC"]⟩

/-- The formats, a file that does not exist, and names. -/
example : demoSingle.writable [] = false ∧ demoSingle.writable (bytes "MSEED") = true ∧
    gemconvertSingle demoSingle [bytes "-i", bytes "FILE0002.012"] = .failed .missingRaw ∧
    47 ∉ bytes "FILE0001.012" ∧ bytes "raw/FILE0001.012" = bytes "raw" ++ 47 :: bytes "FILE0001.012" ∧
    extensionOf (bytes "out/new.Sac") = bytes "Sac" ∧ upper (bytes "Sac") = bytes "SAC" := by
  have hm : demoSingle.file (bytes "FILE0002.012") = none := by
    change (if bytes "FILE0002.012" = bytes "raw/FILE0001.012" then some (⟨bytes "FILE0001.012", 500, .str (bytes "012")⟩ : Entry) else none) = none
    rw [if_neg (by decide +kernel)]
  have h := (C83_violated_status demoSingle [.value 105 (bytes "FILE0002.012")] (by
    intro w hw
    simp only [List.mem_cons, List.not_mem_nil, or_false] at hw
    subst hw
    change 105 ∈ bytes "io"; decide +kernel) (by simp) hm).1
  have e : [Word.value 105 (bytes "FILE0002.012")].flatMap Word.typed = [bytes "-i", bytes "FILE0002.012"] := by decide +kernel
  rw [e] at h
  refine ⟨?_, ?_, h, by decide +kernel, by decide +kernel, by decide +kernel, by decide +kernel⟩
  · change decide ([] ∈ [bytes "MSEED", bytes "SAC"]) = false; decide +kernel
  · change decide (bytes "MSEED" ∈ [bytes "MSEED", bytes "SAC"]) = true; decide +kernel

end Gemlog
