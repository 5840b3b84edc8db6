import Verif.Model.Database

/-!
# Gaps in converted data

Models `check_discontinuity` (gemlog_aux.py:20-30) and `_interpolate_stream` (344-378) on top of the model of obspy streams.
Times are hundredths of a second.
-/

namespace Gemlog

/-! ## check_discontinuity -/

/-- `st.merge()`, `st.split()` for traces with identifiers. Simplification: obspy sorts the parts of the identifiers, not the identifiers. -/
def splitAll (st : List (List Nat × Trace)) : List (List Nat × Trace) :=
  (sortNames (uniqueIn (st.map Prod.fst))).flatMap fun id =>
    match mergeTraces false ((st.filter fun q => q.1 = id).map fun q => q.2.toM) with
    | none => []
    | some m => m.split.map fun tr => (id, tr)

/-- gemlog_aux.py:20-30 `check_discontinuity`: the lines printed, as identifier, start and end; `none`: a file cannot be read. Not modelled:
the text of the times. -/
def checkDiscontinuity (read : List Nat → Option (List (List Nat × Trace))) (files : List (List Nat)) :
    Option (List (List Nat × Int × Int)) :=
  match files.mapM read with
  | none => none
  | some l =>
    let st := splitAll l.flatten
    some (if st.length > 1 then st.map fun q => (q.1, q.2.start, q.2.stop) else [])

/-! ## _interpolate_stream -/

/-- gemlog_aux.py:363-365 `t[data_good]`, `tr_new.data[data_good]`: indices and values of the samples that are not masked. -/
def goodPoints (k : Int) : List (Option Int) → List (Int × Int)
  | [] => []
  | some x :: l => (k, x) :: goodPoints (k + 1) l
  | none :: l => goodPoints (k + 1) l

/-- gemlog_aux.py:363-366: masked samples are replaced with values of the spline (`spline`, a parameter), cut to integers when they are put
into the array. -/
def fillMasked (spline : List (Int × Int) → Int → Rat) (m : MTrace) : Trace :=
  ⟨m.start, (List.range m.data.length).map fun k : Nat => (m.data[k]?.join).getD (pyTrunc (spline (goodPoints 0 m.data) k))⟩

/-- gemlog_aux.py:353-373: one pass of the loop; `g` is `gap_limit_sec` in hundredths, `segs` the traces before the loop. Errors: there is
no trace in the slice, or its data are not a masked array and have no attribute `mask` (obspy returns an ordinary array if nothing is missing). -/
def interpStep (spline : List (Int × Int) → Int → Rat) (g : Int) (segs : List Trace) (st : List Trace) (i : Nat) : Except Exc (List Trace) :=
  match segs[i]?, segs[i + 1]? with
  | some a, some b =>
    if b.start - a.stop < g then
      let cut := (st.map (Trace.trim (a.stop - g) (b.start + g))).filter fun tr => tr.data.length != 0
      match mergeTraces false (cut.map Trace.toM) with
      | none => .error .other
      | some m => if m.data.all Option.isSome then .error .other else .ok (st ++ [fillMasked spline m])
    else .ok st
  | _, _ => .ok st

/-- `st.merge()`, `st.split()` for one identifier. -/
def remerge (st : List Trace) : List Trace :=
  match mergeTraces false (st.map Trace.toM) with
  | none => []
  | some m => m.split

/-- gemlog_aux.py:344-378 `_interpolate_stream`. -/
def interpolateStream (spline : List (Int × Int) → Int → Rat) (g : Int) (st : List Trace) : Except Exc (List Trace) :=
  let segs := remerge st
  if segs.length = 1 then .ok segs
  else
    match (List.range (segs.length - 1)).foldlM (interpStep spline g segs) segs with
    | .error x => .error x
    | .ok st' => .ok (remerge st')

end Gemlog
