import Verif.Py.Scan

/-!
# The compiled raw-file parser

Models `parse_gemfile` (parsers.pyx:9-155) on arbitrary file contents, including the line buffer and
the placeholder variables that persist from line to line.
-/

namespace Gemlog

/-- Line types stored in `result_linetypes`. -/
inductive Kind
  | D
  | G
  | M
  deriving DecidableEq, Repr

/-- One row of the three aligned result arrays: line type, millisecond value, 11 numeric columns. -/
structure Row where
  kind : Kind
  millis : Rat
  vals : List Rat
  deriving DecidableEq, Repr

/-- Variables that persist across lines (parsers.pyx:43-52, 61): the D, G and M placeholders in the
order in which `sscanf` assigns them, and `prev_dD_millis`. -/
structure PState where
  d : List Rat   -- DmsSamp, ADC
  g : List Rat   -- msPPS, msLag, yr, mo, day, hr, mn, sec, lat, lon
  m : List Rat   -- ms, batt, temp, A2, A3, maxLag, minFree, maxUsed, maxOver, gpsFlag, fs1, fsIdle
  prev : Rat     -- prev_dD_millis
  deriving DecidableEq, Repr

/-- parsers.pyx:43-52, 61: everything starts at zero. -/
def PState.init : PState :=
  { d := List.replicate 2 0, g := List.replicate 10 0, m := List.replicate 12 0, prev := 0 }

/-- `sscanf` overwrites the first placeholders and leaves the others as they were. -/
def overlay (new old : List Rat) : List Rat := new ++ old.drop new.length

/-- parsers.pyx:95 format of D lines. -/
def fmtD : List Conv := [.lf, .d]
/-- parsers.pyx:108 format of G lines. -/
def fmtG : List Conv := [.lf, .lf, .d, .d, .d, .d, .d, .lf, .lf, .lf]
/-- parsers.pyx:127 format of M lines. -/
def fmtM : List Conv := [.lf, .lf, .lf, .lf, .lf, .d, .d, .d, .d, .d, .d, .d]

/-- A zero-initialised row of 11 columns with the first ones set (parsers.pyx:57). -/
def fillRow (vals : List Rat) : List Rat := vals ++ List.replicate (11 - vals.length) 0

/-- parsers.pyx:80-144: processing of the line in the buffer. `none`: the line is skipped. -/
def stepLine (st : PState) (buf : List Nat) : Option Row × PState :=
  let c0 := buf.getD 0 0
  let c1 := buf.getD 1 0
  if 97 ≤ c0 ∧ c0 ≤ 122 then                                   -- 81
    if c1 < 97 ∨ c1 > 122 then                                 -- 82-84
      let cur := pyMod (st.prev + 10) (2 ^ 13)
      (some ⟨.D, cur, fillRow [(c0 : Rat) - 109]⟩, { st with prev := cur })
    else                                                       -- 85-87
      let cur := pyMod (st.prev + 10 + c0 - 109) (2 ^ 13)
      (some ⟨.D, cur, fillRow [(c1 : Rat) - 109]⟩, { st with prev := cur })
  else if c0 = 68 then                                         -- 92-102
    let got := sscanf fmtD (cstr buf 1)
    let d := overlay got st.d
    if got.length = 1 then
      let ms := pyMod (st.prev + 10) (2 ^ 13)
      (some ⟨.D, ms, fillRow [d.getD 0 0]⟩, { st with d := [ms, d.getD 1 0], prev := ms })
    else
      (some ⟨.D, d.getD 0 0, fillRow [d.getD 1 0]⟩, { st with d := d, prev := d.getD 0 0 })
  else if c0 = 71 then                                         -- 104-120
    let g := overlay (sscanf fmtG (cstr buf 2)) st.g
    (some ⟨.G, g.getD 0 0, fillRow g.tail⟩, { st with g := g })
  else if c0 = 77 then                                         -- 122-142
    let m := overlay (sscanf fmtM (cstr buf 2)) st.m
    (some ⟨.M, m.getD 0 0, fillRow m.tail⟩, { st with m := m })
  else (none, st)                                              -- 143-144

/-- parsers.pyx:75: `fgets` stores the piece and a NUL at the start of the buffer, the rest of the
buffer keeps its old content. -/
def loadBuf (buf chunk : List Nat) : List Nat := chunk ++ 0 :: buf.drop (chunk.length + 1)

/-- parsers.pyx:74-147 without a bound on the number of rows. -/
def parseChunks (st : PState) (buf : List Nat) : List (List Nat) → List Row
  | [] => []
  | c :: cs =>
    let buf := loadBuf buf c
    match stepLine st buf with
    | (some r, st) => r :: parseChunks st buf cs
    | (none, st) => parseChunks st buf cs

/-- parsers.pyx:74-147: the loop as written; storing row number `idx` in arrays of `nRow` rows
raises IndexError (`none`) when `idx ≥ nRow`. -/
def parseChunksN (nRow : Nat) (idx : Nat) (st : PState) (buf : List Nat) :
    List (List Nat) → Option (List Row)
  | [] => some []
  | c :: cs =>
    let buf := loadBuf buf c
    match stepLine st buf with
    | (some r, st) =>
      if idx < nRow then (parseChunksN nRow (idx + 1) st buf cs).map (r :: ·) else none
    | (none, st) => parseChunksN nRow idx st buf cs

/-- `parse_gemfile` on a file content, without a bound on the number of rows. `buf0` is the
uninitialised line buffer (parsers.pyx:38). -/
def parseGem (buf0 content : List Nat) : List Row :=
  parseChunks .init buf0 (fgetsChunks content)

/-- parsers.pyx:9-155 `parse_gemfile(filename, n_row)`; `none` is IndexError. -/
def parseGemN (nRow : Nat) (buf0 content : List Nat) : Option (List Row) :=
  parseChunksN nRow 0 .init buf0 (fgetsChunks content)

end Gemlog
