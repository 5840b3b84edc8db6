import Verif.Model.Interp

/-!
# Streams: slicing, trimming, merging

Models the obspy operations used by `convert` (obspy is not part of /repo; its behaviour is part of the
trusted base) and `_merge_gaps` (core.py:550-564). All traces of a conversion have one identifier and lie on
the grid of hundredths of a second, because `_interp_time` rounds their start times (core.py:1308, 1313).
Times given by the user are integer microseconds.
-/

namespace Gemlog

/-- `Trace.stats.endtime` in hundredths of a second. For an empty trace obspy returns the start time. -/
def Trace.stop (tr : Trace) : Int := if tr.data.length = 0 then tr.start else tr.start + tr.data.length - 1

/-- `obspy.core.compat.round_away` of a number of microseconds divided by 10 ms. -/
def roundAway (d : Int) : Int := if d ≥ 0 then (d + 5000) / 10000 else -((-d + 5000) / 10000)

/-- `Trace._ltrim` by `d` samples. -/
def Trace.ltrim (d : Int) (tr : Trace) : Trace :=
  if d > 0 then ⟨tr.start + d, tr.data.drop d.toNat⟩ else tr

/-- `Trace._rtrim` by `-d` samples; `before`: is the end time before the start of the trace? -/
def Trace.rtrim (d : Int) (before : Bool) (tr : Trace) : Trace :=
  if d ≥ 0 then tr
  else if before then ⟨tr.stop + d, []⟩
  else ⟨tr.start, tr.data.take (tr.data.length + d).toNat⟩

/-- `Trace.slice(s, e, nearest_sample=False)`, times in microseconds. -/
def Trace.slice (s e : Int) (tr : Trace) : Trace :=
  let a := tr.ltrim (-((10000 * tr.start - s) / 10000))
  a.rtrim ((e - 10000 * a.stop) / 10000) (e < 10000 * a.start)

/-- `Stream.slice(s, e, nearest_sample=False)`: empty traces are left out. -/
def sliceStream (s e : Int) (p : List Trace) : List Trace :=
  (p.map (Trace.slice s e)).filter fun tr => tr.data.length != 0

/-- `Trace.trim(a, b)` for times on the grid, in hundredths of a second. -/
def Trace.trim (a b : Int) (tr : Trace) : Trace :=
  let x := tr.ltrim (a - tr.start)
  x.rtrim (b - x.start - x.data.length + 1) (b < x.start)

/-- `Stream.trim(a, b)`, times in microseconds, which are first moved to the nearest sample of the first trace.
`Trace.trim` raises ValueError (`other`) if the start is after the end. -/
def trimStream (a b : Int) (p : List Trace) : Except Exc (List Trace) :=
  match p with
  | [] => .ok []
  | tr :: _ =>
    let a' := tr.start + roundAway (a - 10000 * tr.start)
    let b' := tr.stop + roundAway (b - 10000 * tr.stop)
    if a' > b' then .error .other
    else .ok ((p.map (Trace.trim a' b')).filter fun tr => tr.data.length != 0)

/-- A trace whose samples may be masked (`none`). -/
structure MTrace where
  start : Int
  data : List (Option Int)
  deriving DecidableEq, Repr

/-- The last sample time of a non-empty masked trace. -/
def MTrace.stop (tr : MTrace) : Int := tr.start + tr.data.length - 1

/-- Conversion of an unmasked trace. -/
def Trace.toM (tr : Trace) : MTrace := ⟨tr.start, tr.data.map some⟩

/-- `create_empty_data_chunk`: masked samples without fill value, or, for `fill_value='interpolate'` with the two
bordering samples, a linear interpolation cut to an integer. Masked bordering samples do not occur. -/
def fillChunk (interpolate : Bool) (n : Nat) (l r : Option Int) : List (Option Int) :=
  match interpolate, l, r with
  | true, some x, some y =>
    (List.range n).map fun (k : Nat) => some (pyTrunc ((x : Rat) + ((k : Rat) + 1) * ((y - x : Int) : Rat) / ((n : Rat) + 1)))
  | _, _, _ => List.replicate n none

/-- `np.all(np.equal(x, y))`; masked entries count as equal. -/
def agree (x y : List (Option Int)) : Bool :=
  (x.zip y).all fun q => q.1.isNone || q.2.isNone || q.1 == q.2

/-- `Trace.__add__(method=0)` for non-empty traces, the first of which does not start later. -/
def addOrdered (interpolate : Bool) (lt rt : MTrace) : MTrace :=
  let delta := rt.start - lt.stop - 1
  let fill (n : Nat) := fillChunk interpolate n (lt.data.getLast?.join) (rt.data.head?.join)
  if delta < 0 ∧ lt.stop - rt.stop < 0 then
    let d := (-delta).toNat
    let keep := lt.data.take (lt.data.length - d)
    if agree (lt.data.drop (lt.data.length - d)) (rt.data.take d) then ⟨lt.start, keep ++ rt.data⟩
    else ⟨lt.start, keep ++ fill d ++ rt.data.drop d⟩
  else if delta < 0 then
    let i := lt.data.length - (-delta).toNat
    if agree ((lt.data.drop i).take rt.data.length) rt.data then lt
    else ⟨lt.start, lt.data.take i ++ fill rt.data.length ++ lt.data.drop (i + rt.data.length)⟩
  else ⟨lt.start, lt.data ++ fill delta.toNat ++ rt.data⟩

/-- `Trace.__add__(method=0)` for non-empty traces. -/
def addTraces (interpolate : Bool) (a b : MTrace) : MTrace :=
  if a.start ≤ b.start then addOrdered interpolate a b else addOrdered interpolate b a

/-- Order of `Stream.sort` for one identifier: start time, then end time. -/
def sortsBefore (a b : MTrace) : Bool := a.start < b.start || (a.start == b.start && a.stop ≤ b.stop)

/-- Insertion into a sorted list. -/
def insertTrace (a : MTrace) : List MTrace → List MTrace
  | [] => [a]
  | b :: l => if sortsBefore a b then a :: b :: l else b :: insertTrace a l

/-- `Stream.sort` (stable). -/
def sortTraces : List MTrace → List MTrace
  | [] => []
  | a :: l => insertTrace a (sortTraces l)

/-- `Stream.merge(fill_value)` for non-empty traces of one identifier: they are added up in sorted order. -/
def mergeTraces (interpolate : Bool) (st : List MTrace) : Option MTrace :=
  match sortTraces st with
  | [] => none
  | a :: l => some (l.foldl (addTraces interpolate) a)

/-- `Trace.split`: the runs of unmasked samples. `cur`: the run being collected, reversed. -/
def splitData : Int → List Int → List (Option Int) → List Trace
  | k, cur, [] => if cur = [] then [] else [⟨k - cur.length, cur.reverse⟩]
  | k, cur, some x :: l => splitData (k + 1) (x :: cur) l
  | k, cur, none :: l =>
    if cur = [] then splitData (k + 1) [] l else ⟨k - cur.length, cur.reverse⟩ :: splitData (k + 1) [] l

/-- `Trace.split`. -/
def MTrace.split (tr : MTrace) : List Trace := splitData tr.start [] tr.data

/-- core.py:553-562: one step of the loop over the following traces; `out` is `output_st`. -/
def mergeStep (out : List MTrace) (tr2 : MTrace) : List MTrace :=
  match out.getLast? with
  | none => out
  | some tr1 =>
    if 10000 * (tr2.start - tr1.stop) ≤ 31000 then
      out ++ (mergeTraces true [tr1, tr2]).toList
    else out ++ [tr2]

/-- core.py:550-564 `_merge_gaps`. The traces are unmasked on entry, so `st.split()` changes nothing. -/
def mergeGaps (st : List Trace) : List Trace :=
  match st.map Trace.toM with
  | [] => []
  | tr :: rest =>
    match mergeTraces false (rest.foldl mergeStep [tr]) with
    | none => []
    | some tr => tr.split

end Gemlog
