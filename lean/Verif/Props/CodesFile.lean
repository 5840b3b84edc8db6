import Verif.Props.Inventory

/-!
# From the codes file to the converted data

C47 for a codes file given as a table with a header line: which of its cells become network, station and location.
-/

namespace Gemlog

/-- The first row of a table that has the serial number `n` in the column `sn`. -/
def FirstLine (rows : List (List (List Nat))) (sn : Nat) (n : Int) (row : List (List Nat)) : Prop :=
  ∃ before after, rows = before ++ row :: after ∧ pyInt (row.getD sn []) = some n ∧ ∀ q ∈ before, pyInt (q.getD sn []) ≠ some n

theorem forall₂_firstLine {sn net sta loc : Nat} {n : Int} {rows : List (List (List Nat))} {table : List CodeRow}
    (h : List.Forall₂ (fun row (c : CodeRow) => c.sn = row.getD sn [] ∧ c.network = row.getD net [] ∧ c.station = row.getD sta [] ∧ c.location = row.getD loc [])
      rows table) (r : CodeRow) (hf : FirstRow table n r) :
    ∃ row, FirstLine rows sn n row ∧ r.network = row.getD net [] ∧ r.station = row.getD sta [] ∧ r.location = row.getD loc [] := by
  obtain ⟨b, a, rfl, hn, hb⟩ := hf
  induction b generalizing rows with
  | nil =>
    cases h with
    | cons h1 h2 => exact ⟨_, ⟨[], _, rfl, by rw [← h1.1]; exact hn, by simp⟩, h1.2⟩
  | cons c b ih =>
    cases h with
    | cons h1 h2 =>
      obtain ⟨row, ⟨b', a', rfl, h3, h4⟩, h5⟩ := ih h2 fun q hq => hb q (by simp [hq])
      refine ⟨row, ⟨_ :: b', a', rfl, h3, ?_⟩, h5⟩
      intro q hq
      rcases List.mem_cons.mp hq with rfl | hq
      · rw [← h1.1]; exact hb c (by simp)
      · exact h4 q hq

/-- **C47.** The codes file is a table whose header line names the columns, in any order and in capitals or not. Then a serial number that is wanted is converted
exactly if some line has it, and it gets the cells `network`, `station` and `location` of the first such line. Missing:
raw folders with other files in them (`C47_violated_stray`). -/
theorem C47_codes_file_partial (ws : List Word) (hv : ∀ w ∈ ws, w.Valid) (hh : Word.flag 104 ∉ ws) (ht : Word.flag 116 ∉ ws)
    (hp : 0 < typedProcesses ws) (listdir : List Nat → Option (List (List Nat))) (cells : List Nat → List (List (List Nat))) (files : List (List Nat))
    (hdir : listdir ((typedValue ws 105).getD (bytes "raw")) = some files) (codesfile : List Nat) (hcodes : typedValue ws 99 = some codesfile)
    (header : List (List Nat)) (rows : List (List (List Nat))) (hcells : cells codesfile = header :: rows) (sn net sta loc : Nat)
    (hnames : ∀ h ∈ header, lower h ∈ [bytes "sn", bytes "network", bytes "station", bytes "location", bytes "elevation"]) (hnd : (header.map lower).Nodup)
    (h1 : header[sn]?.map lower = some (bytes "sn")) (h2 : header[net]?.map lower = some (bytes "network"))
    (h3 : header[sta]?.map lower = some (bytes "station")) (h4 : header[loc]?.map lower = some (bytes "location"))
    (hnum : ∀ row ∈ rows, (pyInt (row.getD sn [])).isSome) (hwant : ∀ s, WantedSNs ws files s → (pyInt s).isSome) :
    ∃ sns jobs : List _, gemconvert ⟨listdir, fun f => codesOfCells (cells f)⟩ (ws.flatMap Word.typed) = .run jobs (typedProcesses ws) ∧
      (sns.Pairwise (· < ·) ∧ ∀ s, s ∈ sns ↔ WantedSNs ws files s ∧ ∃ row ∈ rows, pyInt (row.getD sn []) = pyInt s) ∧
      jobs.map ConvArgs.sn = sns ∧
      ∀ j ∈ jobs, ∃ n row, pyInt j.sn = some n ∧ FirstLine rows sn n row ∧ j = jobFor ws j.sn (row.getD net []) (row.getD sta []) (row.getD loc []) := by
  obtain ⟨t, ht', hf⟩ := C63_header_partial header rows sn net sta loc hnames hnd h1 h2 h3 h4
  obtain ⟨table, htab, hf2⟩ : ∃ table, codesOfCells (cells codesfile) = some table ∧
      List.Forall₂ (fun row (c : CodeRow) => c.sn = row.getD sn [] ∧ c.network = row.getD net [] ∧ c.station = row.getD sta [] ∧ c.location = row.getD loc [])
        rows table := by
    refine ⟨_, by rw [hcells, codesOfCells, ht']; rfl, ?_⟩
    rw [List.forall₂_map_right_iff]
    exact hf.imp fun row s h => ⟨h.1, h.2.1, h.2.2.1, h.2.2.2.1⟩
  have hmem : ∀ P : List Nat → Prop, (∃ r ∈ table, P r.sn) ↔ ∃ row ∈ rows, P (row.getD sn []) := by
    intro P
    clear hnum htab hcells hf ht'
    induction hf2 with
    | nil => simp
    | cons h _ ih => simp only [List.exists_mem_cons_iff, ih, h.1]
  have hall : ∀ r ∈ table, (pyInt r.sn).isSome := by
    intro r hr
    by_contra hc
    obtain ⟨row, hrow, hx⟩ := (hmem fun s => ¬ (pyInt s).isSome).mp ⟨r, hr, hc⟩
    exact hx (hnum row hrow)
  obtain ⟨sns, jobs, e1, ⟨e2, e3⟩, e4, e5⟩ := C47_codes_partial ws hv hh ht hp ⟨listdir, fun f => codesOfCells (cells f)⟩ files hdir codesfile hcodes table htab hall hwant
  refine ⟨sns, jobs, e1, ⟨e2, fun s => ?_⟩, e4, fun j hj => ?_⟩
  · rw [e3, hmem fun x => pyInt x = pyInt s]
  · obtain ⟨n, r, hn, hr, hjob⟩ := e5 j hj
    obtain ⟨row, hrow, g1, g2, g3⟩ := forall₂_firstLine hf2 r hr
    exact ⟨n, row, hn, hrow, by rw [← g1, ← g2, ← g3]; exact hjob⟩

/-- A codes file with the columns in another order, and two lines for the first instrument. -/
def orderedCodes : List (List (List Nat)) :=
  [[bytes "Station", bytes "SN", bytes "Location", bytes "Network"], [bytes "LADR1", bytes "12", bytes "01", bytes "NM"],
    [bytes "LADR2", bytes "012", bytes "02", bytes "NM"], [bytes "PARK", bytes "034", bytes "00", bytes "XP"]]

example :
    let ws := [Word.value 99 (bytes "codes.txt")]
    let files := [bytes "FILE0001.056", bytes "FILE0001.034", bytes "FILE0001.012", bytes "FILE0002.012"]
    let header := [bytes "Station", bytes "SN", bytes "Location", bytes "Network"]
    (∀ w ∈ ws, w.Valid) ∧ 0 < typedProcesses ws ∧ typedValue ws 99 = some (bytes "codes.txt") ∧
    (∀ h ∈ header, lower h ∈ [bytes "sn", bytes "network", bytes "station", bytes "location", bytes "elevation"]) ∧ (header.map lower).Nodup ∧
    header[1]?.map lower = some (bytes "sn") ∧ header[3]?.map lower = some (bytes "network") ∧ header[0]?.map lower = some (bytes "station") ∧
    header[2]?.map lower = some (bytes "location") ∧
    gemconvert ⟨fun _ => some files, fun _ => codesOfCells orderedCodes⟩ (ws.flatMap Word.typed) =
      .run [jobFor ws (bytes "012") (bytes "NM") (bytes "LADR1") (bytes "01"), jobFor ws (bytes "034") (bytes "XP") (bytes "PARK") (bytes "00")] 1 := by
  refine ⟨?_, by decide +kernel, by decide +kernel, by decide +kernel, by decide +kernel, by decide +kernel, by decide +kernel, by decide +kernel, by decide +kernel, by decide +kernel⟩
  intro w hw
  rw [List.mem_singleton.mp hw]
  show 99 ∈ bytes "isxcoflp"
  decide +kernel

end Gemlog
