import Verif.Props.Whole

/-!
# The header table that `read_gem` returns (C64)
-/

namespace Gemlog

/-- A row of the header table describes a file: number of samples, serial number, number of fixes, medians of their positions, first and last
count. -/
structure DescribesFile (readSN : Entry → Except Exc String) (e : Entry) (L : FileData) (row : HeaderRow) : Prop where
  samples : row.numDataPts = L.data.length
  serial : readSN e = .ok row.sn
  fixes : row.info.numGps = L.gps.length
  lat : L.gps ≠ [] → MedianOf row.info.lat (L.gps.map fun f => f.lat)
  lon : L.gps ≠ [] → MedianOf row.info.lon (L.gps.map fun f => f.lon)
  nowhere : L.gps = [] → row.info.lat = none ∧ row.info.lon = none
  first : L.data.head?.map Prod.fst = some row.info.startMs
  last : L.data.getLast?.map Prod.fst = some row.info.endMs

theorem drift_fixes {fit : Fitter} {L : FileData} {info : HeaderInfo} (h : calculateDrift fit L true = .ok info) : L.gps ≠ [] := by
  intro hg
  rw [calculateDrift_eq, if_pos ⟨rfl, hg⟩] at h
  simp at h

theorem outcome_used_data {F : Type} {ops : FileOps F} {rg : Bool} {version : String} {start : Rat} {f : F} {P : FileData}
    (h : Outcome ops rg version start f (.ok P)) : P.data ≠ [] := by
  cases h with
  | used v hv L P h hp hs info hd sn hn =>
    cases hp with
    | asRead _ hne => exact hne
    | moved hm =>
      obtain ⟨p, hp, _⟩ := hm
      intro he
      unfold movedBy at he
      simp only [List.map_eq_nil_iff] at he
      rw [he] at hp
      simp at hp

theorem history_data {F : Type} {ops : FileOps F} {rg : Bool} {version : String} {start : Rat}
    {hist : List (F × Except Exc FileData)} (h : History ops rg version start hist) : ∀ P ∈ accepted hist, P.data ≠ [] := by
  induction h with
  | nil => simp [accepted]
  | rejected _ _ _ _ _ _ ih => simpa [accepted, List.filterMap_cons, okPart] using ih
  | accepted _ _ P ho _ _ ih =>
    intro Q hQ
    simp only [accepted, okPart, List.filterMap_cons, List.mem_cons] at hQ
    rcases hQ with rfl | hQ
    · exact outcome_used_data ho
    · exact ih Q hQ

/-- **C64.** The header table that `read_gem` returns has one row for each file, in their order (files whose version cannot be read at the beginning left out):
that of an accepted file describes what was read of it (which the fixes returned consist of), and that of a rejected file is reported among the problems. -/
theorem C64_read_gem (d : RawDisk) (dir : List Entry) (SN : List Nat) (nums : List Int) (rg : Bool) (g : GemData)
    (h : readGem d.env dir SN nums rg = .ok g) :
    ∃ (bad : List Entry) (hist : List (Entry × Except Exc FileData)),
      findFiles dir SN nums = bad ++ hist.map Prod.fst ∧ (∀ e ∈ bad, formatVersion (d.content e) = none) ∧
      List.Forall₂ (fun x row => (∀ L, x.2 = .ok L → DescribesFile d.readSN x.1 L row) ∧ (∀ e, x.2 = .error e → (x.1, e) ∈ g.problems)) hist g.header ∧
      (((accepted hist).map FileData.gps).flatten ≠ [] → g.gps = ((accepted hist).map FileData.gps).flatten) ∧
      interpTime d.spline (timedData ((accepted hist).map FileData.data).flatten g.header) = .ok g.stream := by
  obtain ⟨bad, v, hist, h1, h2, _, ⟨w, _, h3⟩, h4, h5, _, h6, _, h7⟩ := C15_read_gem d.env dir SN nums rg g h
  refine ⟨bad, hist, h1, h2, ?_, ?_, h7⟩
  · have key : ∀ {hs : List (Entry × Except Exc FileData)} {rows : List HeaderRow}, List.Forall₂ (RowFor d.env.ops rg) hs rows →
        (∀ x ∈ hs, x ∈ hist) →
        List.Forall₂ (fun x row => (∀ L, x.2 = .ok L → DescribesFile d.readSN x.1 L row) ∧ (∀ e, x.2 = .error e → (x.1, e) ∈ g.problems)) hs rows := by
      intro hs rows hf
      induction hf with
      | nil => intro _; exact .nil
      | @cons x row hs rows hx _ ih =>
        intro hm
        refine .cons ⟨?_, ?_⟩ (ih fun y hy => hm y (List.mem_cons_of_mem _ hy))
        · intro L hL
          cases hx with
          | used f P info sn hd hn =>
            simp only [Except.ok.injEq] at hL
            subst hL
            have hd' : calculateDrift d.fit P rg = .ok info := hd
            have hclock : recordedClock rg P info = info := by
              unfold recordedClock
              rw [if_neg]
              rintro ⟨rfl, hg⟩
              exact drift_fixes hd' hg
            obtain ⟨k1, k2, k3, k4⟩ := C64_header d.fit P rg info hd'
            have hne : P.data ≠ [] := history_data h3 P (List.mem_filterMap.mpr ⟨_, hm _ List.mem_cons_self, rfl⟩)
            obtain ⟨a, ha⟩ : ∃ a, P.data.head? = some a := ⟨P.data.head hne, List.head?_eq_some_head hne⟩
            obtain ⟨b, hb⟩ : ∃ b, P.data.getLast? = some b := ⟨P.data.getLast hne, List.getLast?_eq_some_getLast hne⟩
            obtain ⟨m1, m2⟩ := k4 a b ha hb
            rw [hclock]
            refine ⟨rfl, hn, k3, fun hg => (k1 hg).1, fun hg => (k1 hg).2, k2, ?_, ?_⟩
            · rw [ha, m1]; rfl
            · rw [hb, m2]; rfl
          | zero f y => simp at hL
          | noSerial f y P info hd hn => simp at hL
        · intro e he
          rw [h5]
          unfold rejected
          refine List.mem_filterMap.mpr ⟨x, hm _ List.mem_cons_self, ?_⟩
          obtain ⟨f, r⟩ := x
          simp only at he
          subst he
          rfl
    exact key h4 fun _ hx => hx
  · intro hne
    rw [h6, if_neg hne]

/-- The conclusion of `C64_read_gem` for a file of four samples and its fixes. -/
example : ∃ (g : GemData) (hist : List (Entry × Except Exc FileData)),
    readGem demoDisk.env [⟨bytes "FILE0001.012", 500, .str (bytes "012")⟩] (bytes "012") [1] true = .ok g ∧ g.header.length = 1 ∧
      hist.map Prod.fst = [⟨bytes "FILE0001.012", 500, .str (bytes "012")⟩] ∧
      List.Forall₂ (fun x row => (∀ L, x.2 = .ok L → DescribesFile demoDisk.readSN x.1 L row) ∧ (∀ e, x.2 = .error e → (x.1, e) ∈ g.problems)) hist g.header := by
  have hrec : trueRecord 1577836800 (1024 / 1000000) [demoLog] =
    [(1577836800 + 1024 / 1000000 * (0 + 893 / 100), 100), (1577836800 + 1024 / 1000000 * (10 + 893 / 100), 95),
     (1577836800 + 1024 / 1000000 * (21 + 893 / 100), 98), (1577836800 + 1024 / 1000000 * (31 + 893 / 100), 98)] := by decide +kernel
  obtain ⟨g, tr, h1, h2, _, h4, _⟩ := C65_gapless demoDisk [⟨bytes "FILE0001.012", 500, .str (bytes "012")⟩] (bytes "012") [1] (fun _ => demoLog)
    1577836800 (1024 / 1000000) ⟨bytes "FILE0001.012", 500, .str (bytes "012")⟩ [] (by decide +kernel) (fun _ _ => rfl) demo_clean "0.91"
    (by decide) ⟨_, _, rfl, congrArg LogLine.other (by decide +kernel)⟩ (fun _ _ => ⟨_, rfl⟩) 12 (by decide +kernel) (specsOf (7 / 10)) (by decide +kernel) (.inl rfl)
    idealFit_reproduces idealFit_line _ rfl (1577836800 + 1024 / 1000000 * (0 + 893 / 100)) (1577836800 + 1024 / 1000000 * (31 + 893 / 100))
    (by rw [List.map_singleton, hrec]; rfl) (by rw [List.map_singleton, hrec]; rfl) (by norm_num)
    (by rw [List.map_singleton, hrec]; decide +kernel) (fun _ => 7)
    (by rw [List.map_singleton, hrec]; rfl)
  obtain ⟨bad, hist, k1, k2, k3, _⟩ := C64_read_gem demoDisk _ _ _ _ g h1
  rw [show findFiles [⟨bytes "FILE0001.012", 500, .str (bytes "012")⟩] (bytes "012") [1] = [⟨bytes "FILE0001.012", 500, .str (bytes "012")⟩] by decide +kernel] at k1
  have hbad : bad = [] := by
    cases bad with
    | nil => rfl
    | cons b bs =>
      rw [List.cons_append, List.cons.injEq] at k1
      have hv := k2 b List.mem_cons_self
      rw [← k1.1, show formatVersion (demoDisk.content ⟨bytes "FILE0001.012", 500, .str (bytes "012")⟩) = some "0.91" by decide +kernel] at hv
      simp at hv
  rw [hbad, List.nil_append] at k1
  refine ⟨g, hist, h1, ?_, k1.symm, k3⟩
  rw [← k3.length_eq, ← List.length_map (f := Prod.fst), ← k1]
  rfl

end Gemlog
