import Verif.Model.HuddleReport
import Verif.Props.HuddleGps
import Verif.Props.Interp

/-!
# C112: the report of the huddle test holds its results

A huddle test that completes writes a report with a line for each logger in the table of results and in the table of statistics, each value in the line of its logger
and under the name of its column, and with every message once.
-/

namespace Gemlog

/-! ## Specification -/

/-- What is read in column `j` of the four lines above a table, from above; the first column is that of the serial numbers. -/
def headingText (head : List (List (List Nat))) (j : Nat) : List Nat :=
  [32].intercalate ((head.map fun line => line.getD (j + 1) []).filter (· ≠ []))

/-- The name of a test in the report. -/
def printedTest : HTest → List Nat
  | .battMin => bytes "Battery min"
  | .battMax => bytes "Battery max"
  | .tempMin => bytes "Temp min"
  | .tempMax => bytes "Temp max"
  | .flatA2 => bytes "A2 flat"
  | .rangeA2 => bytes "A2 range"
  | .flatA3 => bytes "A3 flat"
  | .rangeA3 => bytes "A3 range"
  | .unusualFifo => bytes "Unusual FIFO use"
  | .excessiveFifo => bytes "Excessive FIFO use"
  | .overruns => bytes "Max overrun"
  | .unusedStack => bytes "Unused stack"
  | .gpsRunTime => bytes "GPS run time"

/-- The statistics of a logger with their names in the report. -/
def printedStats (s : HuddleStats) : List (List Nat × Option Rat) :=
  [(bytes "Battery min", s.battMin), (bytes "Battery max", s.battMax), (bytes "Temp min", s.tempMin), (bytes "Temp max", s.tempMax),
   (bytes "Temp average", s.tempMean), (bytes "A2 flat", some s.flatA2), (bytes "A3 flat", some s.flatA3), (bytes "fifo over limit", some s.fifoOver),
   (bytes "Max overrun", s.maxOverruns), (bytes "Mean GPS run time", s.gpsMean), (bytes "GPS on-time ratio", some s.gpsRatio)]

/-- A number printed with three decimals; a missing one is printed as missing. -/
def PrintedAs : Option Rat → Option Rat → Prop
  | some x, some p => |p - x| ≤ 1 / 2000 ∧ ∃ k : Int, p = k / 1000
  | none, none => True
  | _, _ => False

/-! ## Proofs -/

theorem status_head : ∃ head, tableHead (allTests.map testTitle) = .ok head ∧
    ∀ test, ∃ j, allTests[j]? = some test ∧ headingText head j = printedTest test := by
  refine ⟨((tableHead (allTests.map testTitle)).toOption).getD [], by decide +kernel, ?_⟩
  intro test
  cases test
  · exact ⟨0, by decide +kernel, by decide +kernel⟩
  · exact ⟨1, by decide +kernel, by decide +kernel⟩
  · exact ⟨2, by decide +kernel, by decide +kernel⟩
  · exact ⟨3, by decide +kernel, by decide +kernel⟩
  · exact ⟨4, by decide +kernel, by decide +kernel⟩
  · exact ⟨5, by decide +kernel, by decide +kernel⟩
  · exact ⟨6, by decide +kernel, by decide +kernel⟩
  · exact ⟨7, by decide +kernel, by decide +kernel⟩
  · exact ⟨8, by decide +kernel, by decide +kernel⟩
  · exact ⟨9, by decide +kernel, by decide +kernel⟩
  · exact ⟨10, by decide +kernel, by decide +kernel⟩
  · exact ⟨11, by decide +kernel, by decide +kernel⟩
  · exact ⟨12, by decide +kernel, by decide +kernel⟩

theorem stat_head : ∃ head, tableHead statTitles = .ok head ∧ (List.range 11).map (headingText head) = (printedStats ⟨none, none, none, none, none, 0, 0, 0, none, none, 0⟩).map Prod.fst :=
  ⟨((tableHead statTitles).toOption).getD [], by decide +kernel, by decide +kernel⟩

theorem round3_printed (x : Option Rat) : PrintedAs x (x.map round3) := by
  cases x with
  | none => trivial
  | some x =>
    refine ⟨?_, npRound (x * 1000), rfl⟩
    have h := npRound_near (x * 1000)
    unfold round3
    rw [abs_le] at h ⊢
    constructor <;> [have := h.1; have := h.2] <;> linarith

theorem reportRows_get {sns : List (List Nat)} {cells : List (List RCell)} {i : Nat} {sn : List Nat} {c : List RCell} (h1 : sns[i]? = some sn)
    (h2 : cells[i]? = some c) : (reportRows sns cells)[i]? = some (sn, c) := by
  have hi : i < cells.length := (List.getElem?_eq_some_iff.mp h2).1
  unfold reportRows
  rw [List.getElem?_map, List.getElem?_range hi]
  simp [List.getD_eq_getElem?_getD, h1, h2]

theorem reportRows_fst {sns : List (List Nat)} {cells : List (List RCell)} (h : cells.length = sns.length) :
    (reportRows sns cells).map Prod.fst = sns := by
  apply List.ext_getElem?
  intro i
  unfold reportRows
  rw [List.map_map, List.getElem?_map]
  by_cases hi : i < cells.length
  · rw [List.getElem?_range hi]
    simp [List.getD_eq_getElem?_getD, List.getElem?_eq_getElem (h ▸ hi)]
  · rw [List.getElem?_eq_none (by simpa using hi), List.getElem?_eq_none (by omega)]
    rfl

/-- The report of a run that has completed. -/
theorem report_ok {spline : List (Int × Int) → Int → Rat} {empty : Except HExc Unit} {loggers : List HuddleFiles} {only : Bool}
    {r : HuddleRun} (h : huddleRun spline empty loggers only = .ok r) :
    ∃ rep head head', huddleReport (loggers.map HuddleFiles.sn) r = .ok rep ∧ tableHead (allTests.map testTitle) = .ok head ∧ tableHead statTitles = .ok head' ∧
      rep = { errorsAndWarnings := r.outcome.printed.individual.errors ++ r.outcome.printed.individual.warnings
              notes := r.outcome.printed.individual.notes
              statusHead := head
              statusRows := reportRows (loggers.map HuddleFiles.sn)
                (loggers.map fun l => (testRow (l.rows.getD [])).map fun q => RCell.text (statusText q.2))
              statHead := head'
              statRows := reportRows (loggers.map HuddleFiles.sn)
                (loggers.map fun l => (statColumns (statsOf (l.rows.getD []))).map fun q => RCell.num (q.2.map round3))
              group := r.outcome.printed.group.errors.map .message ++ (if r.outcome.printed.group.oneLogger then [.oneLogger] else []) ++
                (if r.outcome.printed.group.agree then [.agree] else []) } := by
  obtain ⟨head, e1, -⟩ := status_head
  obtain ⟨head', e2, -⟩ := stat_head
  obtain ⟨hv, hs⟩ := huddleRun_loggers h
  obtain ⟨-, hr, -⟩ := individualTests_eq _ _ _ (verifyHuddle_individual hv)
  simp only [List.nil_append, List.map_map] at hr
  refine ⟨_, head, head', ?_, e1, e2, rfl⟩
  have hne : loggers ≠ [] := by
    rintro rfl
    simp [huddleRun] at h
  obtain ⟨l, rest, rfl⟩ := List.exists_cons_of_ne_nil hne
  unfold huddleReport
  simp only
  have e3 : tableHead ((r.outcome.printed.individual.results.head?.elim [] Prod.snd).map fun p => testTitle p.1) = .ok head := by
    rw [hr, ← e1]
    rfl
  rw [e3, e2]
  simp only
  rw [hr, hs]
  simp only [List.map_map]
  rfl

/-- **C112, results.** The table of results in the report has a line for each logger, in their order, which begins with its serial number. In this line, under the
name of each test, is its result; unless readings are missing it says ERROR, WARNING or NOTE exactly if the readings call for it, and otherwise OKAY. -/
theorem C112_results (spline : List (Int × Int) → Int → Rat) (empty : Except HExc Unit) (loggers : List HuddleFiles) (only : Bool)
    (r : HuddleRun) (h : huddleRun spline empty loggers only = .ok r) :
    ∃ rep, huddleReport (loggers.map HuddleFiles.sn) r = .ok rep ∧ rep.statusRows.map Prod.fst = loggers.map HuddleFiles.sn ∧
      ∀ (i : Nat) (l : HuddleFiles) (rows : List HuddleRow), loggers[i]? = some l → l.rows = some rows → ∃ cells, rep.statusRows[i]? = some (l.sn, cells) ∧
        ∀ test, ∃ (j : Nat) (s : List Nat), headingText rep.statusHead j = printedTest test ∧ cells[j]? = some (.text s) ∧
          (NoGaps rows → (s = bytes "ERROR" ↔ ErrorCase rows test) ∧ (s = bytes "WARNING" ↔ ¬ ErrorCase rows test ∧ WarningCase rows test) ∧
            (s = bytes "NOTE" ↔ NoteCase rows test) ∧
            (s = bytes "OKAY" ↔ ¬ ErrorCase rows test ∧ ¬ WarningCase rows test ∧ ¬ NoteCase rows test)) := by
  obtain ⟨rep, head, head', hrep, e1, e2, rfl⟩ := report_ok h
  refine ⟨_, hrep, reportRows_fst (by simp), ?_⟩
  intro i l rows hi hrows
  refine ⟨(testRow rows).map fun q => RCell.text (statusText q.2), reportRows_get (by rw [List.getElem?_map, hi]; rfl) (by rw [List.getElem?_map, hi]; simp [hrows]), ?_⟩
  intro test
  obtain ⟨hd, f1, f2⟩ := status_head
  obtain rfl : hd = head := by rw [e1] at f1; cases f1; rfl
  obtain ⟨j, g1, g2⟩ := f2 test
  have hmap : (testRow rows).map Prod.fst = allTests := rfl
  rw [← hmap, List.getElem?_map] at g1
  obtain ⟨p, hp, rfl⟩ := Option.map_eq_some_iff.mp g1
  refine ⟨j, statusText p.2, g2, by rw [List.getElem?_map, hp]; rfl, ?_⟩
  intro hg
  obtain ⟨hv, -⟩ := huddleRun_loggers h
  obtain ⟨-, hres⟩ := C77_results _ _ _ hv
  obtain ⟨row, hrow, -, hsays⟩ := hres i l.sn rows (by rw [List.getElem?_map, hi]; simp [hrows])
  obtain ⟨-, hr, -⟩ := individualTests_eq _ _ _ (verifyHuddle_individual hv)
  simp only [List.nil_append, List.map_map] at hr
  obtain rfl : testRow rows = row := by
    rw [hr, List.getElem?_map, hi] at hrow
    simpa [hrows] using hrow
  obtain ⟨s1, s2, s3⟩ := hsays hg p (List.mem_of_getElem? hp)
  have inj : ∀ a b : HStatus, statusText a = statusText b ↔ a = b := by
    intro a b
    cases a <;> cases b <;> decide +kernel
  refine ⟨(inj p.2 .error).trans s1, (inj p.2 .warning).trans s2, (inj p.2 .note).trans s3, (inj p.2 .okay).trans ?_⟩
  cases hp2 : p.2 <;> simp only [hp2, reduceCtorEq, false_iff, true_iff] at s1 s2 s3 ⊢ <;> tauto

/-- **C112, statistics.** The table of statistics in the report has a line for each logger, which begins with its serial number and has all its statistics, each
under its name and with three decimals. -/
theorem C112_statistics (spline : List (Int × Int) → Int → Rat) (empty : Except HExc Unit) (loggers : List HuddleFiles) (only : Bool)
    (r : HuddleRun) (h : huddleRun spline empty loggers only = .ok r) :
    ∃ rep, huddleReport (loggers.map HuddleFiles.sn) r = .ok rep ∧ rep.statRows.map Prod.fst = loggers.map HuddleFiles.sn ∧
      ∀ (i : Nat) (l : HuddleFiles) (rows : List HuddleRow), loggers[i]? = some l → l.rows = some rows → ∃ cells, rep.statRows[i]? = some (l.sn, cells) ∧
        ∀ (j : Nat) (name : List Nat) (x : Option Rat), (printedStats (statsOf rows))[j]? = some (name, x) →
          headingText rep.statHead j = name ∧ ∃ p, cells[j]? = some (.num p) ∧ PrintedAs x p := by
  obtain ⟨rep, head, head', hrep, e1, e2, rfl⟩ := report_ok h
  refine ⟨_, hrep, reportRows_fst (by simp), ?_⟩
  intro i l rows hi hrows
  refine ⟨(statColumns (statsOf rows)).map fun q => RCell.num (q.2.map round3),
    reportRows_get (by rw [List.getElem?_map, hi]; rfl) (by rw [List.getElem?_map, hi]; simp [hrows]), ?_⟩
  intro j name x hj
  obtain ⟨hd, f1, f2⟩ := stat_head
  obtain rfl : hd = head' := by rw [e2] at f1; cases f1; rfl
  have hlt : j < 11 := by
    have := (List.getElem?_eq_some_iff.mp hj).1
    simpa [printedStats] using this
  have hname : (printedStats (statsOf rows)).map Prod.fst = (List.range 11).map (headingText hd) := by rw [f2]; rfl
  have hval : (printedStats (statsOf rows)).map Prod.snd = (statColumns (statsOf rows)).map Prod.snd := rfl
  constructor
  · have := congrArg (fun l => l[j]?) hname
    simp only [List.getElem?_map, hj, List.getElem?_range hlt, Option.map_some, Option.some.injEq] at this
    exact this.symm
  · have := congrArg (fun l => l[j]?) hval
    simp only [List.getElem?_map, hj, Option.map_some] at this
    obtain ⟨q, hq, hqx⟩ := Option.map_eq_some_iff.mp this.symm
    refine ⟨x.map round3, by rw [List.getElem?_map, hq, ← hqx]; rfl, round3_printed x⟩

/-- The names stand directly above the table: four lines, `n` columns and one for the serial numbers, which is called `SN` in the third line and nowhere else;
nothing is missing in the last line, and nothing is missing below a word. -/
def AboveTable (n : Nat) (head : List (List (List Nat))) : Prop :=
  head.length = 4 ∧ (∀ line ∈ head, line.length = n + 1) ∧ head.map (fun line => line.head?) = [some (bytes " "), some (bytes " "), some (bytes "SN"), some (bytes " ")] ∧
    ∀ j < n, (head.getD 3 []).getD (j + 1) [] ≠ [] ∧ ∀ i < 3, (head.getD i []).getD (j + 1) [] ≠ [] → (head.getD (i + 1) []).getD (j + 1) [] ≠ []

/-- **C112, names of columns.** The names of the 13 tests and the 11 statistics stand directly above their tables. -/
theorem C112_headings (spline : List (Int × Int) → Int → Rat) (empty : Except HExc Unit) (loggers : List HuddleFiles) (only : Bool)
    (r : HuddleRun) (h : huddleRun spline empty loggers only = .ok r) :
    ∃ rep, huddleReport (loggers.map HuddleFiles.sn) r = .ok rep ∧ AboveTable 13 rep.statusHead ∧ AboveTable 11 rep.statHead := by
  obtain ⟨rep, head, head', hrep, e1, e2, rfl⟩ := report_ok h
  refine ⟨_, hrep, ?_, ?_⟩
  · have : AboveTable 13 (((tableHead (allTests.map testTitle)).toOption).getD []) := by unfold AboveTable; decide +kernel
    rw [e1] at this
    exact this
  · have : AboveTable 11 (((tableHead statTitles).toOption).getD []) := by unfold AboveTable; decide +kernel
    rw [e2] at this
    exact this

/-- **C112, messages.** The report has one line for each error and each warning in the table of results, one for each note, and all that was found comparing the
loggers, and nothing else. -/
theorem C112_messages (spline : List (Int × Int) → Int → Rat) (empty : Except HExc Unit) (loggers : List HuddleFiles) (only : Bool)
    (r : HuddleRun) (h : huddleRun spline empty loggers only = .ok r) :
    ∃ rep, huddleReport (loggers.map HuddleFiles.sn) r = .ok rep ∧
      (∃ errors warnings, rep.errorsAndWarnings = errors ++ warnings ∧ MessagesOf errors r.outcome.printed.individual.results .error ∧
        MessagesOf warnings r.outcome.printed.individual.results .warning) ∧
      MessagesOf rep.notes r.outcome.printed.individual.results .note ∧
      (∀ m, rep.group.count (.message m) = r.outcome.printed.group.errors.count m) ∧
      (GroupLine.oneLogger ∈ rep.group ↔ loggers.length = 1 ∨ only = true) ∧
      (GroupLine.agree ∈ rep.group ↔ r.outcome.printed.group.agree = true) := by
  obtain ⟨rep, head, head', hrep, e1, e2, rfl⟩ := report_ok h
  obtain ⟨hv, -⟩ := huddleRun_loggers h
  obtain ⟨m1, m2, m3⟩ := C77_messages _ _ _ hv
  refine ⟨_, hrep, ⟨_, _, rfl, m1, m2⟩, m3, ?_, ?_, ?_⟩
  · intro m
    simp only [List.count_append]
    have h1 : (List.map GroupLine.message r.outcome.printed.group.errors).count (.message m) = r.outcome.printed.group.errors.count m :=
      List.count_map_of_injective _ _ (fun a b h => by cases h; rfl) _
    rw [h1]
    split_ifs <;> simp
  · have hone : r.outcome.printed.group.oneLogger = (loggers.length == 1 || only) := by
      obtain ⟨-, temps, -, hg⟩ := verifyHuddle_group hv
      rw [hg, List.length_map]
    simp only [List.mem_append, hone]
    split_ifs <;> simp_all
  · simp only [List.mem_append]
    split_ifs <;> simp_all

/-- Two loggers of 21 minutes complete the test, and the report has two lines in each table. -/
example (spline : List (Int × Int) → Int → Rat) (m n : Nat) (hm : 721 ≤ m) (hn : 126000 ≤ n) :
    ∃ r rep, huddleRun spline (.error .other) [huddleFiles (bytes "061") (curveRows 30 1 m fun _ => 20) 3000 n,
      huddleFiles (bytes "065") (curveRows (30 + 1) 1 m fun _ => 25) 4000 n] false = .ok r ∧ huddleReport [bytes "061", bytes "065"] r = .ok rep ∧ rep.statusRows.length = 2 ∧ rep.statRows.map Prod.fst = [bytes "061", bytes "065"] := by
  obtain ⟨r, h⟩ := demo_completes spline m n hm hn
  obtain ⟨rep, h1, h2, -⟩ := C112_results _ _ _ _ _ h
  obtain ⟨rep', h1', h2', -⟩ := C112_statistics _ _ _ _ _ h
  obtain rfl : rep = rep' := by rw [h1] at h1'; cases h1'; rfl
  exact ⟨r, rep, h, h1, by simpa using congrArg List.length h2, h2'⟩

end Gemlog
