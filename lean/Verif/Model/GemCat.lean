import Verif.Model.ReadSingle
import Verif.Model.Select

/-!
# Merging raw files

Models gem_cat.py: `gem_cat` (16-105) and `AppendFile` (112-162). A file is its content as bytes. Simplifications: contents
hold no carriage returns, tabs, quotation marks or undecodable bytes, and no line is one of the words pandas takes for a missing
value, so reading a table with delimiter `\t` yields the lines.
-/

namespace Gemlog

/-- The lines of a text, each with its newline; the last one may lack it. `cur` is the line being collected. -/
def textLinesGo (cur : List Nat) : List Nat → List (List Nat)
  | [] => if cur = [] then [] else [cur]
  | b :: l => if b = 10 then (cur ++ [10]) :: textLinesGo [] l else textLinesGo (cur ++ [b]) l

/-- Iterating over a file opened in text mode (gem_cat.py:139, 158). -/
def textLines (content : List Nat) : List (List Nat) := textLinesGo [] content

/-- pandas skips lines that are empty or contain only blanks. -/
def notBlank (line : List Nat) : Bool := line.any fun b => decide (b ≠ 10) && decide (b ≠ 32)

/-- A line without its newline. -/
def chomp (line : List Nat) : List Nat := if line.getLast? = some 10 then line.dropLast else line

/-- gem_cat.py:127, 134, 149: `pd.read_csv(infile, skiprows = j, nrows = 1, ...)`: the first line that is not blank from line `j` on;
`none`: EmptyDataError. -/
def peekLine (lines : List (List Nat)) (j : Nat) : Option (List Nat) := ((lines.drop j).find? notBlank).map chomp

/-- gem_cat.py:124-131, 147-152: count `j` up until the line read is a `D` line. Recursion over the lines behind `j`. -/
def findD : List (List Nat) → Option Nat
  | [] => none
  | l :: ls =>
    match peekLine (l :: ls) 0 with
    | none => none
    | some s => if s.head? = some 68 then some 0 else (findD ls).map (· + 1)

/-- core.py:589-599 `_read_format_version(fn)`: the first line from its eighth character on. Simplification: the first line
has no comma. -/
def formatVersion (content : List Nat) : Option String :=
  (peekLine (textLines content) 0).map fun s => String.ofList ((s.drop 7).map Char.ofNat)

/-- What merging depends on besides the files: the table reader based on pandas (`_read_with_pandas`, core.py:756-782), the
uninitialised line buffers of the compiled parser, `_read_SN` (core.py:581-587; `none`: raises), and whether pandas raises for an
empty GPS table (see `gpsTable`). -/
structure CatEnv where
  emptyRaises : Bool
  buf0 : List Nat
  buf1 : List Nat
  pandas : List Nat → Except Exc Table
  old : List Nat → Except Exc Table
  readSN : List Nat → Option (List Nat)

/-- core.py:784-841 `_read_single(fn, require_gps = False, version = v)` on a content. -/
def CatEnv.read (env : CatEnv) (content : List Nat) (version : String) : Except Exc FileData :=
  readSingle env.emptyRaises
    ⟨(readWithCython env.buf0 env.buf1 false (some content)).map cythonTable, env.pandas content, env.old content⟩
    0 false version

/-- gem_cat.py:121: `int(_read_single(...)['data'][-1,1])`: the last pressure; `int` of NaN is a ValueError. -/
def lastPressure (d : FileData) : Except Exc Int :=
  match d.data.getLast? with
  | none => .error .other
  | some p =>
    match p.2 with
    | none => .error .other
    | some x => .ok (pyTrunc x)

/-- gem_cat.py:134-136: the adjusted data line. Simplification: a line that does not have two fields raises here. -/
def adjustLine (s : List Nat) (pStart : Int) : Except Exc (List Nat) :=
  match splitComma s with
  | [c1, c2] =>
    match pyInt c2 with
    | none => .error .other
    | some v => .ok (c1 ++ [44] ++ intStr (v - pStart) ++ [10])
  | _ => .error .other

/-- gem_cat.py:112-162 `AppendFile(infile, outfile, prev_infile)`: the text appended to the output file. -/
def appendText (env : CatEnv) (infile prev : List Nat) : Except Exc (List Nat) :=
  match formatVersion infile with
  | none => .error .other
  | some format =>
    let lines := textLines infile
    if format ∈ ["0.85C", "0.9", "0.91", "1.10"] then                        -- 118-119
      match (env.read prev format).bind lastPressure with                     -- 121
      | .error x => .error x
      | .ok pStart =>
        match findD lines with                                                -- 124-131
        | none => .error .other
        | some j =>
          match (peekLine lines j).elim (.error .other) (fun s => adjustLine s pStart) with
          | .error x => .error x
          | .ok first => .ok (first ++ (lines.drop (j + 1)).flatten)          -- 134-141
    else
      match findD lines with                                                  -- 147-152
      | none => .error .other
      | some j => .ok (lines.drop j).flatten                                  -- 156-160

/-- gem_cat.py:65-71: does the file have a GPS line; `none`: `pd.read_csv` raises because nothing is in it. -/
def hasGps (content : List Nat) : Option Bool :=
  let lines := (textLines content).filter notBlank
  if lines = [] then none else some (lines.any fun l => decide (l.head? = some 71))

/-- gem_cat.py:80, 95: `'/FILE%04d.%s' % (counter, SN)`. -/
def outName (counter : Nat) (sn : List Nat) : List Nat := bytes "FILE" ++ zeroPad 4 (natStr counter) ++ [46] ++ sn

/-- The state of the loop: the files written, in order (the last one is `out_file`), the previous input file and its
`has_gps`. -/
structure CatState where
  outs : List (List Nat × List Nat)
  prev : List Nat
  prevGps : Bool

/-- Append a text to the last file written. -/
def addToLast (t : List Nat) : List (List Nat × List Nat) → List (List Nat × List Nat)
  | [] => []
  | [o] => [(o.1, o.2 ++ t)]
  | o :: os => o :: addToLast t os

/-- gem_cat.py:57-104: one file. `counter` is the number of files written. An exception ends the program. -/
def catStep (env : CatEnv) (catAll : Bool) (sn : List Nat) (st : CatState) (f : List Nat) : Except Exc CatState :=
  if catAll then                                                             -- 57-63
    if st.outs = [] then .ok ⟨[(bytes "FILE9999." ++ sn, f)], f, false⟩
    else (appendText env f st.prev).map fun t => ⟨addToLast t st.outs, f, false⟩
  else
    match hasGps f with
    | none => .error .emptyRaw                                               -- 68-69
    | some g =>
      if g = false ∧ st.outs = [] then .ok ⟨[], f, false⟩                    -- 74-75
      else if st.outs = [] then .ok ⟨[(outName 0 sn, f)], f, true⟩           -- 78-84
      else if g then                                                         -- 86
        if st.prevGps = false then                                           -- 88-90
          (appendText env f st.prev).map fun t => ⟨addToLast t st.outs, f, true⟩
        else .ok ⟨st.outs ++ [(outName st.outs.length sn, f)], f, true⟩      -- 91-97
      else (appendText env f st.prev).map fun t => ⟨addToLast t st.outs, f, false⟩  -- 98-104

/-- gem_cat.py:53: the loop over the files. -/
def catLoop (env : CatEnv) (catAll : Bool) (sn : List Nat) : List (List Nat) → CatState → Except Exc CatState
  | [], st => .ok st
  | f :: fs, st =>
    match catStep env catAll sn st f with
    | .error x => .error x
    | .ok st => catLoop env catAll sn fs st

/-- gem_cat.py:45-105: from the sorted list of files on. Result: names and contents of the files written. -/
def gemCatFiles (env : CatEnv) (catAll : Bool) (files : List (List Nat)) : Except Exc (List (List Nat × List Nat)) :=
  match files with
  | [] => .error .other                                                      -- 49-51: IndexError
  | f :: _ =>
    match env.readSN f with
    | none => .error .emptyRaw
    | some sn => (catLoop env catAll sn files ⟨[], [], false⟩).map CatState.outs

/-- A raw file: name and content. -/
structure RawFile where
  name : List Nat
  content : List Nat
  deriving DecidableEq, Repr

/-- Insertion by name. -/
def insertRaw (e : RawFile) : List RawFile → List RawFile
  | [] => [e]
  | f :: l => if nameLe e.name f.name then e :: f :: l else f :: insertRaw e l

/-- `sorted(...)`. -/
def sortRaw : List RawFile → List RawFile
  | [] => []
  | e :: l => insertRaw e (sortRaw l)

/-- The pattern `FILE[0-9][0-9][0-9][0-9].<ext>*` (gem_cat.py:43). Simplification: `ext` holds no wildcard. -/
def catName (ext s : List Nat) : Bool :=
  decide (s.take 4 = bytes "FILE") && decide (((s.drop 4).take 4).length = 4) && ((s.drop 4).take 4).all isDigit &&
    decide ((s.drop 8).take (1 + ext.length) = 46 :: ext)

/-- gem_cat.py:16-105 `gem_cat(input_dir, output_dir, ext, cat_all)` on an existing input directory. -/
def gemCat (env : CatEnv) (catAll : Bool) (ext : List Nat) (dir : List RawFile) :
    Except Exc (List (List Nat × List Nat)) :=
  gemCatFiles env catAll ((sortRaw (dir.filter fun e => catName ext e.name)).map RawFile.content)

end Gemlog
