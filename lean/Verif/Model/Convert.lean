import Verif.Model.Stream

/-!
# The block and writing loops of `convert`

Models core.py:184-356. Times are integer microseconds. Not modelled: printing, creation of directories, the
metadata and GPS tables (see `Model/Tables.lean`; they do not influence the converted files), the bitweight (stored in the header of
the output).
-/

namespace Gemlog

/-- Result of a loop run with limited fuel: finished, raised (with the segments written before), or still running. -/
inductive Run (α : Type) where
  | done (a : α)
  | raised (x : Exc) (out : List Trace)
  | running
  deriving DecidableEq, Repr

/-- Sequencing. -/
def Run.bind {α β : Type} (r : Run α) (f : α → Run β) : Run β :=
  match r with
  | .done a => f a
  | .raised x out => .raised x out
  | .running => .running

/-- core.py:393-394 `_trunc_UTCDateTime(x, n)`. -/
def truncTime (x n : Int) : Int := Int.tdiv x n * n

/-- core.py:338-356 `_write_hourlong_mseed`: the segments written, and the new `hour_to_write`. `eps` is 1 µs. -/
def writeWindow (L : Int) (p : List Trace) (h : Int) : List Trace × Int :=
  let hourEnd := truncTime h L + L
  (sliceStream h (hourEnd - 1) p, hourEnd)

/-- The loops' variables: `p`, `hour_to_write` and the segments written so far. -/
structure WState where
  p : List Trace
  h : Int
  out : List Trace
  deriving DecidableEq, Repr

/-- core.py:315-321 and 328-334, the common body of both writing loops: write one window, trim, move to the start of
the remaining data. The flag says whether the loop goes on (`False`: `break`). -/
def writeBody (L t2 : Int) (s : WState) : Run (WState × Bool) :=
  let w := writeWindow L s.p s.h
  match trimStream w.2 t2 s.p with
  | .error x => .raised x (s.out ++ w.1)
  | .ok [] => .done (⟨[], w.2, s.out ++ w.1⟩, false)
  | .ok (tr :: p) => .done (⟨tr :: p, 10000 * tr.start, s.out ++ w.1⟩, true)

/-- core.py:313-321: write whole windows while the data reach beyond them. `p[-1]` raises IndexError on an empty
stream. -/
def writeFull (L t2 : Int) : Nat → WState → Run WState
  | 0, _ => .running
  | n + 1, s =>
    match s.p.getLast? with
    | none => .raised .other s.out
    | some tr =>
      if s.h + L ≤ 10000 * tr.stop then
        (writeBody L t2 s).bind fun r => if r.2 then writeFull L t2 n r.1 else .done r.1
      else .done s

/-- core.py:327-334: write what is left. -/
def writeRest (L t2 : Int) : Nat → WState → Run WState
  | 0, _ => .running
  | n + 1, s =>
    match s.p.getLast? with
    | none => .raised .other s.out
    | some tr =>
      if s.h ≤ 10000 * tr.stop then
        (writeBody L t2 s).bind fun r => if r.2 then writeRest L t2 n r.1 else .done r.1
      else .done s

/-- The arguments of a conversion: the selected file numbers (sorted), `blockdays` (any number, also a fraction of a day), the file length,
`t2`, and `read_gem` for a block of numbers (only its stream). -/
structure Job where
  nums : List Int
  blockdays : Rat
  L : Int
  t2 : Int
  read : List Int → Except Exc (List Trace)

/-- `max(nums)`; the list is sorted. -/
def Job.last (j : Job) : Int := j.nums.getLast?.getD 0

/-- core.py:277, 324: the length of a block in microseconds. Simplification: it is rounded up to a whole microsecond. -/
def Job.day (j : Job) : Int := ⌈86400000000 * j.blockdays⌉

/-- core.py:191, 280: the numbers of the block starting at `n1`. -/
def Job.block (j : Job) (n1 : Rat) : List Int :=
  j.nums.filter fun n => decide ((n : Rat) ≥ n1) && decide ((n : Rat) < n1 + 12 * j.blockdays)

/-- Is the exception one of those that skip a block (core.py:195-198, 281-284)? -/
def Exc.skipsBlock (x : Exc) : Bool := x == .missingRaw || x.isCorrupt

/-- core.py:186-203: read blocks until one has data. Returns `n1`, the stream, and the blocks read. -/
def firstBlock (j : Job) : Nat → Rat → List (List Int) → Run (Rat × List Trace × List (List Int))
  | 0, _, _ => .running
  | fuel + 1, n1, reads =>
    if n1 ≤ j.last then
      let n2 := n1 + 12 * j.blockdays
      match j.read (j.block n1) with
      | .error x => if x.skipsBlock then firstBlock j fuel n2 (reads ++ [j.block n1]) else .raised x []
      | .ok [] => firstBlock j fuel n2 (reads ++ [j.block n1])
      | .ok p => .done (n2, p, reads ++ [j.block n1])
    else .raised .missingRaw []

/-- core.py:278-301: read blocks while the data end before `tt2`. `out`: the segments written before. -/
def readBlocks (j : Job) (tt2 : Int) (out : List Trace) : Nat → Rat → List Trace → List (List Int) →
    Run (Rat × List Trace × List (List Int))
  | 0, _, _, _ => .running
  | fuel + 1, n1, p, reads =>
    match p.getLast? with
    | none => .raised .other out
    | some tr =>
      if 10000 * tr.stop < tt2 ∧ n1 ≤ j.last then
        let n2 := n1 + 12 * j.blockdays
        match j.read (j.block n1) with
        | .error x => if x.skipsBlock then readBlocks j tt2 out fuel n2 p (reads ++ [j.block n1]) else .raised x out
        | .ok [] => readBlocks j tt2 out fuel n2 p (reads ++ [j.block n1])
        | .ok d => readBlocks j tt2 out fuel n2 (mergeGaps (p ++ d)) (reads ++ [j.block n1])
      else .done (n1, p, reads)

/-- The variables of the main loop. -/
structure CState where
  n1 : Rat
  t1 : Int
  w : WState
  reads : List (List Int)
  deriving DecidableEq, Repr

/-- core.py:270-325: the main loop. All loops inside get the same fuel. -/
def mainLoop (j : Job) : Nat → CState → Run CState
  | 0, _ => .running
  | fuel + 1, s =>
    if s.n1 > j.last then .done s
    else if s.t1 > j.t2 then .done s
    else
      let day := j.day
      let tt2 := min j.t2 (truncTime s.t1 day + day)
      (readBlocks j tt2 s.w.out fuel s.n1 s.w.p s.reads).bind fun r =>
      (writeFull j.L j.t2 fuel { s.w with p := r.2.1 }).bind fun w =>
      match trimStream w.h j.t2 w.p with
      | .error x => .raised x w.out
      | .ok p => mainLoop j fuel ⟨r.1, truncTime (tt2 + day + 1000000) day, { w with p := p }, r.2.2⟩

/-- core.py:214-219: the first block's stream and `t1`. Without `t1` (infinite) the stream is merged and `t1` is its
start, rounded up to a whole second. -/
def startTime (t1 : Option Int) (p : List Trace) : Except Exc (List Trace × Int) :=
  match t1 with
  | some t => .ok (p, t)
  | none =>
    match mergeGaps p with
    | [] => .error .other
    | tr :: rest => .ok (tr :: rest, 1000000 * (-((-10000 * tr.start) / 1000000)))

/-- core.py:184-335: the segments written, and the blocks read. -/
def convertLoops (j : Job) (t1 : Option Int) (fuel : Nat) : Run CState :=
  (firstBlock j fuel (j.nums.head?.getD 0 : Int) []).bind fun r =>
  match startTime t1 r.2.1 with
  | .error x => .raised x []
  | .ok (p, t1) =>
    let h := match p with
      | [] => t1
      | tr :: _ => max t1 (10000 * tr.start)
    (mainLoop j fuel ⟨r.1, t1, ⟨p, h, []⟩, r.2.2⟩).bind fun s =>
    (writeRest j.L j.t2 fuel s.w).bind fun w => .done { s with w := w }

end Gemlog
