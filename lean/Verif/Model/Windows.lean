import Mathlib.Data.Rat.Floor
import Verif.Py.Scan
import Verif.Model.Readers

/-!
# Analysis in sliding windows

Models `apply_function_windows` (xcorr.py:370-429). Times are exact rationals, in seconds. A trace is the list of its samples,
each with its time.
-/

namespace Gemlog

/-- An obspy trace: its identifier, and its samples with their times. -/
structure WTrace where
  id : List Nat
  samples : List (Rat × Rat)
  deriving DecidableEq, Repr

/-- `Stream.slice(lo, hi, nearest_sample = False)`: the samples in the closed interval; traces left without samples are dropped.
Simplification: obspy rounds the ends to 1e-7 of a sampling interval. -/
def sliceWaves (lo hi : Rat) (st : List WTrace) : List WTrace :=
  (st.map fun tr => { tr with samples := tr.samples.filter fun s => decide (lo ≤ s.1) && decide (s.1 ≤ hi) }).filter
    fun tr => !tr.samples.isEmpty

/-- xcorr.py:404 `num_windows`, of which `range` (406) takes those above zero. -/
def numWindows (len win overlap : Rat) : Nat := (1 + ⌈(len - win) / (win * (1 - overlap)) - 1 / 1000000⌉).toNat

/-- xcorr.py:401-407: the times at which the windows start. Errors: the stream is empty (IndexError), or a division by zero: by
the step between windows (404), or by `num_windows - 1` if there is one window (407). -/
def windowStarts (st : List WTrace) (win overlap : Rat) : Except Exc (List Rat) :=
  match st.head? with
  | none => .error .other
  | some tr =>
    match tr.samples.head?, tr.samples.getLast? with
    | some a, some b =>
      let len := b.1 - a.1
      if win * (1 - overlap) = 0 then .error .other
      else if numWindows len win overlap = 1 then .error .other
      else .ok ((List.range (numWindows len win overlap)).map fun i : Nat =>
        a.1 + (i : Rat) * (len - win) / ((numWindows len win overlap : Rat) - 1))
    | _, _ => .error .other

/-- xcorr.py:408: what the analysis of the window starting at `s` gets. -/
def windowData (st : List WTrace) (win s : Rat) : List WTrace := sliceWaves (s - 1 / 1000000) (s + win - 1 / 1000000) st

/-- An entry of the result: a result of the analysis, NaN, or a time. -/
inductive WCell (V : Type)
  | val (v : V)
  | nan
  | time (t : Rat)
  deriving DecidableEq, Repr

/-- The result: columns by name. -/
abbrev WTable (V : Type) := List (List Nat × List (WCell V))

/-- A column of the result. -/
def WTable.col {V : Type} (t : WTable V) (key : List Nat) : Option (List (WCell V)) := t.lookup key

/-- `output_dict[key].append(c)` for an existing key. -/
def appendCell {V : Type} (key : List Nat) (c : WCell V) (t : WTable V) : WTable V :=
  t.map fun p => if p.1 = key then (p.1, p.2 ++ [c]) else p

/-- xcorr.py:418-420: one item of a window's results. -/
def putValue {V : Type} (i : Nat) (t : WTable V) (kv : List Nat × V) : WTable V :=
  let t' := if (t.map Prod.fst).contains kv.1 then t else t ++ [(kv.1, List.replicate i WCell.nan)]
  appendCell kv.1 (.val kv.2) t'

/-- xcorr.py:422-424: NaN for the columns that the window has no result for. -/
def fillMissing {V : Type} (win : List (List Nat × V)) (t : WTable V) : WTable V :=
  t.map fun p => if (win.map Prod.fst).contains p.1 || p.1 == bytes "t_mid" then p else (p.1, p.2 ++ [WCell.nan])

/-- xcorr.py:417-427: add the results of window number `i`, with middle `mid`. -/
def putWindow {V : Type} (i : Nat) (t : WTable V) (win : List (List Nat × V)) (mid : Rat) : WTable V :=
  appendCell (bytes "t_mid") (.time mid) (fillMissing win (win.foldl (putValue i) t))

/-- xcorr.py:406-427: the loop over the windows. -/
def windowLoop {V : Type} (f : List WTrace → Except Exc (List (List Nat × V))) (st : List WTrace) (win : Rat) :
    Nat → WTable V → List Rat → Except Exc (WTable V)
  | _, t, [] => .ok t
  | i, t, s :: rest =>
    match f (windowData st win s) with
    | .error e => .error e
    | .ok w => windowLoop f st win (i + 1) (putWindow i t w (s + win / 2)) rest

/-- xcorr.py:370-429 `apply_function_windows`. The analysis is a function of the stream; it returns a dictionary, as a list of items
with different keys. -/
def applyWindows {V : Type} (f : List WTrace → Except Exc (List (List Nat × V))) (st : List WTrace) (win overlap : Rat) :
    Except Exc (WTable V) :=
  match windowStarts st win overlap with
  | .error e => .error e
  | .ok starts => windowLoop f st win 0 [(bytes "t_mid", [])] starts

end Gemlog
