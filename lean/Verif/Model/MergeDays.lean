import Verif.Model.Rename

/-!
# Merging files day by day

Models `merge_files_day` (gem_network.py:345-363). Not modelled: printing, creation of the output directory, the encoding of the files.
obspy's reading and merging are part of the trusted base; times are hundredths of a second.
-/

namespace Gemlog

/-- A file of a directory: its name, and its traces with their identifiers. -/
structure DayFile where
  name : List Nat
  traces : List (List Nat × Trace)
  deriving DecidableEq, Repr

/-- Python `'.'.join(parts)`. -/
def joinDots : List (List Nat) → List Nat
  | [] => []
  | [w] => w
  | w :: ws => w ++ bytes "." ++ joinDots ws

/-- gem_network.py:351: day and rest of a name, with a comma between them. -/
def cutOf (name : List Nat) : List Nat :=
  (pySplit 84 ((pySplit 46 name).headD [])).headD [] ++ bytes "," ++ joinDots ((pySplit 46 name).drop 1)

/-- gem_network.py:354-355; `none`: IndexError (does not occur, see `cutOf`). -/
def dayAndSuffix (cut : List Nat) : Option (List Nat × List Nat) :=
  match pySplit 44 cut with
  | day :: suffix :: _ => some (day, suffix)
  | _ => none

/-- Does `day*suffix` match a name? Simplification: day and suffix contain no other special characters of `glob`. -/
def globMatch (day suffix name : List Nat) : Bool :=
  day.isPrefixOf name && suffix.isSuffixOf name && decide (day.length + suffix.length ≤ name.length)

/-- `Trace.__add__(method=1, fill_value='latest')` for non-empty traces, the first of which does not start later. -/
def addLatest (lt rt : Trace) : Trace :=
  let delta := rt.start - lt.stop - 1
  if delta < 0 ∧ lt.stop - rt.stop < 0 then ⟨lt.start, lt.data.take (lt.data.length - (-delta).toNat) ++ rt.data⟩
  else if delta < 0 then lt
  else ⟨lt.start, lt.data ++ List.replicate delta.toNat (lt.data.getLastD 0) ++ rt.data⟩

/-- Order of `Stream.sort` for one identifier: start time, then end time. -/
def comesBefore (a b : Trace) : Bool := a.start < b.start || (a.start == b.start && a.stop ≤ b.stop)

/-- Insertion into a sorted list. -/
def insertByTime (a : Trace) : List Trace → List Trace
  | [] => [a]
  | b :: l => if comesBefore a b then a :: b :: l else b :: insertByTime a l

/-- `Stream.sort` for one identifier. -/
def sortByTime : List Trace → List Trace
  | [] => []
  | a :: l => insertByTime a (sortByTime l)

/-- `Stream.merge` for the traces of one identifier. -/
def mergeLatest (st : List Trace) : Option Trace :=
  match sortByTime st with
  | [] => none
  | a :: l => some (l.foldl addLatest a)

/-- gem_network.py:361 `x.merge(fill_value = 'latest', method = 1)`: one trace for each identifier. -/
def mergeById (st : List (List Nat × Trace)) : List (List Nat × Trace) :=
  (uniqueIn (st.map Prod.fst)).filterMap fun id =>
    (mergeLatest ((st.filter fun q => q.1 = id).map Prod.snd)).map fun tr => (id, tr)

/-- gem_network.py:358-362: the loop over days and suffixes; `all`: the files in the directory. Returns what was written and whether the
loop came to its end (obspy raises an exception when no file matches). -/
def mergeDaysLoop (all : List DayFile) (outdir : List Nat) : List (List Nat) → List (List Nat × List (List Nat × Trace)) × Bool
  | [] => ([], true)
  | cut :: cuts =>
    match dayAndSuffix cut with
    | none => ([], false)
    | some (day, suffix) =>
      let matched := all.filter fun f => globMatch day suffix f.name
      if matched = [] then ([], false)
      else
        let r := mergeDaysLoop all outdir cuts
        ((outdir ++ bytes "/" ++ day ++ bytes "T00_00_00." ++ suffix, mergeById (matched.flatMap DayFile.traces)) :: r.1, r.2)

/-- gem_network.py:345-363 `merge_files_day`; `selected`: the files that match `infile_pattern`. -/
def mergeFilesDay (all selected : List DayFile) (outdir : List Nat) : List (List Nat × List (List Nat × Trace)) × Bool :=
  mergeDaysLoop all outdir (uniqueIn (selected.map fun f => cutOf f.name))

end Gemlog
