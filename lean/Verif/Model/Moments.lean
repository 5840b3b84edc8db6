import Verif.Model.Convert

/-!
# Limits given as numbers, and the time adjustment

Models core.py:184-356 once more, for limits `t1` and `t2` that are either `UTCDateTime`s or numbers of seconds since 1970, as documented in
core.py:61-67, and with the argument `time_adjustment` (core.py:85-87). Times are integer microseconds. Trusted base: obspy compares a
`UTCDateTime` with a number as expected; `Trace.trim` and `Trace.slice` take a number given as start for seconds after the start of the trace;
`Stream.trim` raises TypeError for a number, because a `UTCDateTime` cannot be subtracted from it.
-/

namespace Gemlog

/-- A limit as given: a `UTCDateTime`, or a number of seconds since 1970 (in microseconds here). -/
inductive Moment where
  | utc (t : Int)
  | num (t : Int)
  deriving DecidableEq, Repr

/-- The instant meant. -/
def Moment.time : Moment → Int
  | .utc t => t
  | .num t => t

/-- `Stream.slice(s, e, nearest_sample=False)` for an end that is a `UTCDateTime`. -/
def sliceAt : Moment → Int → List Trace → List Trace
  | .utc s, e, p => sliceStream s e p
  | .num s, e, p => (p.map fun tr => tr.slice (10000 * tr.start + s) e).filter fun tr => tr.data.length != 0

/-- `Stream.trim(a, b)`. -/
def trimAt (a b : Moment) (p : List Trace) : Except Exc (List Trace) :=
  match p with
  | [] => .ok []
  | tr :: p =>
    match a, b with
    | .utc a, .utc b => trimStream a b (tr :: p)
    | _, _ => .error .other

/-- The loops' variables: `p`, `hour_to_write` and the segments written so far. -/
structure AState where
  p : List Trace
  h : Moment
  out : List Trace
  deriving DecidableEq, Repr

/-- core.py:315-321 and 328-334 with core.py:338-356. -/
def writeBodyAt (L : Int) (t2 : Moment) (s : AState) : Run (AState × Bool) :=
  let e := truncTime s.h.time L + L
  let w := sliceAt s.h (e - 1) s.p
  match trimAt (.utc e) t2 s.p with
  | .error x => .raised x (s.out ++ w)
  | .ok [] => .done (⟨[], .utc e, s.out ++ w⟩, false)
  | .ok (tr :: p) => .done (⟨tr :: p, .utc (10000 * tr.start), s.out ++ w⟩, true)

/-- core.py:313-321. -/
def writeFullAt (L : Int) (t2 : Moment) : Nat → AState → Run AState
  | 0, _ => .running
  | n + 1, s =>
    match s.p.getLast? with
    | none => .raised .other s.out
    | some tr =>
      if s.h.time + L ≤ 10000 * tr.stop then
        (writeBodyAt L t2 s).bind fun r => if r.2 then writeFullAt L t2 n r.1 else .done r.1
      else .done s

/-- core.py:327-334. -/
def writeRestAt (L : Int) (t2 : Moment) : Nat → AState → Run AState
  | 0, _ => .running
  | n + 1, s =>
    match s.p.getLast? with
    | none => .raised .other s.out
    | some tr =>
      if s.h.time ≤ 10000 * tr.stop then
        (writeBodyAt L t2 s).bind fun r => if r.2 then writeRestAt L t2 n r.1 else .done r.1
      else .done s

/-- `t2` as given: `numEnd` tells whether it is a number. -/
def Job.stop (j : Job) (numEnd : Bool) : Moment := if numEnd then .num j.t2 else .utc j.t2

/-- core.py:270-325. The loop's `t1` is only compared and cut to whole days, so its kind does not matter. -/
def mainLoopAt (j : Job) (numEnd : Bool) : Nat → Rat → Int → AState → List (List Int) → Run AState
  | 0, _, _, _, _ => .running
  | fuel + 1, n1, t1, s, reads =>
    if n1 > j.last then .done s
    else if t1 > j.t2 then .done s
    else
      let day := j.day
      let tt2 := min j.t2 (truncTime t1 day + day)
      (readBlocks j tt2 s.out fuel n1 s.p reads).bind fun r =>
      (writeFullAt j.L (j.stop numEnd) fuel { s with p := r.2.1 }).bind fun w =>
      match trimAt w.h (j.stop numEnd) w.p with
      | .error x => .raised x w.out
      | .ok p => mainLoopAt j numEnd fuel r.1 (truncTime (tt2 + day + 1000000) day) { w with p := p } r.2.2

/-- core.py:267: `max(t1, p[0].stats.starttime)`, which is `t1` itself unless the other one is later. -/
def firstHour (t1 : Moment) : List Trace → Moment
  | [] => t1
  | tr :: _ => if 10000 * tr.start > t1.time then .utc (10000 * tr.start) else t1

/-- core.py:214-219. -/
def startMoment (t1 : Option Moment) (p : List Trace) : Except Exc (List Trace × Moment) :=
  match t1 with
  | some t => .ok (p, t)
  | none => (startTime none p).map fun q => (q.1, .utc q.2)

/-- core.py:184-335 `convert(t1, t2, time_adjustment)`: the segments written. The adjustment (microseconds) is an argument nothing in the
function uses. -/
def convertAt (j : Job) (numEnd : Bool) (t1 : Option Moment) (_time_adjustment : Int) (fuel : Nat) : Run (List Trace) :=
  (firstBlock j fuel (j.nums.head?.getD 0 : Int) []).bind fun r =>
  match startMoment t1 r.2.1 with
  | .error x => .raised x []
  | .ok (p, t1) =>
    (mainLoopAt j numEnd fuel r.1 t1.time ⟨p, firstHour t1 p, []⟩ r.2.2).bind fun s =>
    (writeRestAt j.L (j.stop numEnd) fuel s).bind fun w => .done w.out

end Gemlog
