import Verif.Model.Header
import Verif.Model.Reference

/-!
# The readers based on pandas

Models `_read_0_8_pd` (core.py:720-754), the only reader of formats 0.8 and 0.85, and `_read_with_pandas` (core.py:756-782), the reader that
takes over when the compiled one fails. `pd.read_csv` is modelled on the content of the file, with these simplifications: quotation
marks have no meaning, and bytes that are not ASCII are dropped (pandas drops only those that are not valid UTF-8); a line with more fields
than columns is skipped (so does the second attempt, with `on_bad_lines = 'skip'`, after the first has raised; if it is the first line after the
six skipped, pandas would make an index of the extra fields); the texts `inf`, `True`, `False` are text; a file of six lines or fewer gives
an empty table.
-/

namespace Gemlog

/-- The lines of a text: they end at a line feed, a carriage return, or the pair of them. `cur` is the line being read. -/
def pdLinesGo (cur : List Nat) : List Nat → List (List Nat)
  | [] => [cur]
  | 13 :: 10 :: l => cur :: pdLinesGo [] l
  | b :: l => if b = 10 ∨ b = 13 then cur :: pdLinesGo [] l else pdLinesGo (cur ++ [b]) l

/-- The lines of a file, with ASCII characters only. -/
def pdLines (content : List Nat) : List (List Nat) := pdLinesGo [] (content.filter fun b => b < 128)

/-- The text of a line for `pd.read_csv`: blanks and tabs at its start are dropped. -/
def pdTrim (line : List Nat) : List Nat := line.dropWhile fun b => b == 32 || b == 9

/-- core.py:726-731, 760-765 `pd.read_csv(filename, names=range(n), skiprows=6, ...)`: the fields of the lines. Six lines are skipped
whatever they hold, then blank lines. -/
def pdRows (n : Nat) (content : List Nat) : List (List (List Nat)) :=
  (((((pdLines content).drop 6).map pdTrim).filter fun l => l ≠ []).map splitComma).filter fun r => r.length ≤ n

/-- A field as a cell of the table. In a column that holds text, pandas keeps the fields as text; they become numbers when the
column, or a part of it, is converted. -/
def pdCell (s : List Nat) : Cell :=
  if s ∈ naValues then .nan
  else match pyFloat s with
    | some x => .num x
    | none => .text

/-- The kinds of lines by their letter. -/
def letterKind (c : Nat) : Option Kind :=
  if c = 68 then some .D else if c = 77 then some .M else if c = 71 then some .G else none

/-! ## Formats 0.8 and 0.85 -/

/-- core.py:739: only rows whose first field is `D`, `M` or `G`; the cells of the other columns. -/
def oldRow : List (List Nat) → Option (Kind × List Cell)
  | [c] :: fs => (letterKind c).map fun k => (k, fs.map pdCell)
  | _ => none

/-- core.py:740 `df[1].astype(float)` raises ValueError if the cell is text. -/
def oldBad (r : Kind × List Cell) : Bool := r.2.headD .nan == .text

/-- core.py:741, 752-753: rows without a count are dropped; the others get the count as an integer. -/
def oldTRow (r : Kind × List Cell) : Option TRow :=
  match r.2.headD .nan with
  | .num x => some ⟨r.1, pyTrunc x, r.2⟩
  | _ => none

/-- core.py:720-754 `_read_0_8_pd(filename, require_gps)`; `none` if the file does not exist (the FileNotFoundError is caught, 727-733). -/
def readOld (content : Option (List Nat)) (requireGps : Bool) : Except Exc Table :=
  match content with
  | none => .error .corrupt
  | some content =>
    let rows := pdRows 15 content
    if rows = [] then .error .emptyRaw                                                       -- 734-735
    else
      let rows := rows.filterMap oldRow
      if rows.any oldBad then .error .other                                                  -- 740
      else
        let rows := rows.filterMap oldTRow
        if (∀ r ∈ rows, r.kind ≠ .G) ∧ requireGps = true then .error .noGPS                  -- 745-746
        else .ok ⟨false, rows⟩

/-! ## The second reader of the other formats -/

/-- core.py:771-774: the first field must be text: no row without it, and not all of them numbers (then the column is numeric). -/
def pdFirstText (rows : List (List (List Nat))) : Bool :=
  rows.all (fun r => pdCell (r.headD []) != .nan) && rows.any fun r => pdCell (r.headD []) == .text

/-- core.py:772: the kind of a row, by the first character of its first field. -/
def pdKind (r : List (List Nat)) : Option Kind := (r.headD []).head?.bind letterKind

/-- core.py:781 `np.where(df['linetype'] == 'D', df[0].str[1:], df[1]).astype(int)` for one row. `textCol`: column 1 holds text somewhere,
so its fields are text. `none`: ValueError. -/
def pdCount (textCol : Bool) (k : Kind) (r : List (List Nat)) : Option Rat :=
  if k = .D then (pyInt ((r.headD []).drop 1)).map fun z : Int => (z : Rat)
  else
    match pdCell (r.getD 1 []) with
    | .nan => none
    | .text => (pyInt (r.getD 1 [])).map fun z : Int => (z : Rat)
    | .num x => if textCol then (pyInt (r.getD 1 [])).map fun z : Int => (z : Rat) else some (pyTrunc x)

/-- A row of the table: kind, count, and the cells from column 1. -/
def pdTRow (textCol : Bool) (r : List (List Nat)) : Option (Option TRow) :=
  match pdKind r with
  | none => some none
  | some k => (pdCount textCol k r).map fun m => some ⟨k, m, r.tail.map pdCell⟩

/-- core.py:756-782 `_read_with_pandas(filename, require_gps)`; `none` if the file does not exist. -/
def readPandas (content : Option (List Nat)) (requireGps : Bool) : Except Exc Table :=
  match content with
  | none => .error .corrupt                                                                  -- 766-767
  | some content =>
    let rows := pdRows 13 content
    if rows = [] then .error .emptyRaw                                                       -- 768-769
    else if pdFirstText rows = false then .error .corrupt                                    -- 771-774
    else if (∀ r ∈ rows, pdKind r ≠ some .G) ∧ requireGps = true then .error .noGPS          -- 775-776
    else
      let textCol := rows.any fun r => pdCell (r.getD 1 []) == .text
      match rows.mapM (pdTRow textCol) with
      | none => .error .other                                                                -- 781
      | some trows => .ok ⟨false, trows.filterMap id⟩

end Gemlog
