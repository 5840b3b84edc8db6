import Verif.Model.Process
import Verif.Py.PyInt

/-!
# The reference reader

Models `_slow__read_single_v0_9` (core.py:961-1030), the line-by-line reader against which the production readers are tested.
Not modelled: errors of the csv module for NUL bytes and fields of more than 131072 characters, and the texts `inf`, `nan` and
digits with underscores that Python's `float` accepts (a ValueError here).
-/

namespace Gemlog

/-- core.py:963-974: the test of the reference reader, on the numbers of a line. -/
def slowCheckGps (lag y mo d h mi s lat lon : Rat) : Bool :=
  !(lat == 0 || lat > 90 || lat < -90 || lon == 0 || lon > 180 || lon < -180 || lag > 1000 || lag < 0
    || y > 2040 || y < 2014 || mo > 12 || mo < 1 || d > 31 || d < 1 || h > 24 || h < 0 || mi > 60 || mi < 0
    || s > 60 || s < 0 || s != (npRound s : Rat))

/-- core.py:963-974 `_check_gps(line)` for a line with any number of values. `none`: IndexError. The conditions are tested from left
to right, so `line[9]` is read only if the latitude passes. -/
def refCheck : List Rat → Option Bool
  | _ :: lag :: y :: mo :: d :: h :: mi :: s :: lat :: rest =>
    if lat = 0 ∨ lat > 90 ∨ lat < -90 then some false
    else match rest with
      | [] => none
      | lon :: _ => some (slowCheckGps lag y mo d h mi s lat lon)
  | _ => none

/-- Rows of the csv module (`newline=''`): they end at a line feed or carriage return. `cur` is the row being read. A pair CR LF gives
an empty row in between, and so does the end of a file that ends with a line feed; the reader skips empty rows. -/
def csvRowsGo (cur : List Nat) : List Nat → List (List Nat)
  | [] => [cur]
  | b :: l => if b = 10 ∨ b = 13 then cur :: csvRowsGo [] l else csvRowsGo (cur ++ [b]) l

/-- core.py:984-985: the rows of a file, as lists of fields. Bytes that are not ASCII are ignored; quotes have no meaning. -/
def csvRows (content : List Nat) : List (List (List Nat)) :=
  (csvRowsGo [] (content.filter fun b => b < 128)).map splitComma

/-- Python `float(text)`: the whole text, without surrounding white space, must be a number. `none`: ValueError. Simplification: an
exponent letter without digits counts as exponent 0 (Python: ValueError). -/
def pyFloat (s : List Nat) : Option Rat :=
  match scanLf (strip s) with
  | some (v, []) => some v
  | _ => none

/-- numpy `A[i, :] = line` for a row of `n` cells: a single value fills the row. `none`: ValueError. -/
def npAssign (n : Nat) (line : List Rat) : Option (List Rat) :=
  if line.length = n then some line
  else match line with
    | [x] => some (List.replicate n x)
    | _ => none

/-- State of the loop: the last time, and the rows of the three arrays. -/
structure RefState where
  millis : Rat
  D : List (Rat × Rat)
  M : List (Rat × List Rat)
  G : List (GRaw × Option Int)
  deriving DecidableEq, Repr

/-- core.py:1006: store a sample. The array has 750000 rows (979); beyond that, IndexError. -/
def refSample (st : RefState) (line : List Rat) : Except Exc RefState :=
  match npAssign 2 line with
  | some [t, x] => if st.D.length < 750000 then .ok { st with D := st.D ++ [(t, x)] } else .error .other
  | _ => .error .other

/-- core.py:1009: store a status line. The array has 15000 rows (977). -/
def refStatus (st : RefState) (line : List Rat) : Except Exc RefState :=
  match npAssign 12 line with
  | some (t :: vs) => if st.M.length < 15000 then .ok { st with M := st.M ++ [(t, vs)] } else .error .other
  | _ => .error .other

/-- core.py:1011-1014: store a fix that passes the test, with its time (NaN if there is none). The array has 15000 rows (978). -/
def refFix (st : RefState) (line : List Rat) : Except Exc RefState :=
  match refCheck line with
  | none => .error .other
  | some false => .ok st
  | some true =>
    match line with
    | [t, lag, y, mo, d, h, mi, s, lat, lon] =>
      let g : GRaw := ⟨t, some lag, some y, some mo, some d, some h, some mi, some s, some lat, some lon⟩
      if st.G.length < 15000 then .ok { st with G := st.G ++ [(g, makeGpsTime g)] } else .error .other
    | _ => .error .other

/-- core.py:997-1014: one line of known type, given the texts of its values. The first value is unwrapped against the time of the line
before (1002-1003). -/
def refData (c : Nat) (st : RefState) (texts : List (List Nat)) : Except Exc RefState :=
  match texts.mapM pyFloat with
  | some (v :: vs) =>
    let m := unwrapMillis v st.millis (2 ^ 12) (2 ^ 13)
    let st := { st with millis := m }
    if c = 68 then refSample st (m :: vs)
    else if c = 77 then refStatus st (m :: vs)
    else refFix st (m :: vs)
  | _ => .error .other

/-- core.py:987-1014: one row of the file. A row without a first character, or with another one than `D`, `G`, `M`, is skipped. -/
def refRow (st : RefState) : List (List Nat) → Except Exc RefState
  | (c :: f) :: fs =>
    if c = 68 then refData c st (f :: fs)
    else if c = 71 ∨ c = 77 then refData c st fs
    else .ok st
  | _ => .ok st

/-- Result of the reference reader: samples, status lines, and fixes with their time, if it exists. -/
structure RefFile where
  data : List (Rat × Rat)
  metadata : List (Rat × List Rat)
  gps : List (GRaw × Option Int)
  deriving DecidableEq, Repr

/-- core.py:1029 `D[:,1].cumsum()`; `acc` is the sum so far. -/
def refSums (acc : Rat) : List Rat → List Rat
  | [] => []
  | x :: l => (acc + x) :: refSums (acc + x) l

/-- core.py:1015-1030. -/
def refFinish (requireGps : Bool) (st : RefState) : Except Exc RefFile :=
  if st.D = [] then .error .emptyRaw
  else if st.G = [] ∧ requireGps then .error .noGPS
  else .ok ⟨(st.D.map Prod.fst).zip (refSums 0 (st.D.map Prod.snd)), st.M, st.G⟩

/-- core.py:961-1030 `_slow__read_single_v0_9(filename, offset, require_gps)`; `none` if the file does not exist. -/
def refRead (content : Option (List Nat)) (offset : Rat) (requireGps : Bool) : Except Exc RefFile :=
  match content with
  | none => .error .fileNotFound
  | some content =>
    match (csvRows content).foldlM refRow ⟨pyMod offset (2 ^ 13), [], [], []⟩ with
    | .error e => .error e
    | .ok st => refFinish requireGps st

end Gemlog
