import Verif.Model.Slowness
import Verif.Model.Days
import Verif.Model.MergeDays

/-!
# Cross-correlation of an array

Models `_validate_inputs` (xcorr.py:284-309), `xcorr_one_day` (311-333, up to filtering), `xcorr_function` (335-366),
`_check_input_IDs` (432-468) and `upsample_stream` (529-536). Floats are exact. Detrending, tapering and filtering are parameters.
`obspy.signal.cross_correlation.correlate` and `xcorr_max` are modelled after the obspy source.
-/

namespace Gemlog

/-! ## Correlation -/

/-- Sample `n` of a trace that is continued with zeros on both sides (`_pad_zeros` of obspy). -/
def padded (l : List Rat) (n : Int) : Rat := if 0 ≤ n then l.getD n.toNat 0 else 0

/-- `a - np.mean(a)` of obspy's `correlate` (`demean=True`). -/
def demean (l : List Rat) : List Rat := l.map fun x => x - l.sum / l.length

/-- `scipy.signal.correlate(a, b, 'valid')` of the padded traces, at lag `s`. -/
def crossCorr (a b : List Rat) (s : Int) : Rat := ((List.range b.length).map fun n : Nat => padded a (n + s) * padded b n).sum

/-- `correlate(a, b, m)` for traces of the same length: the lags from `-m` to `m`. Not modelled: the division by the norm, a positive number
(or, for a norm of zero, setting all values to the zero that they have), which does not change where the maximum is. -/
def correlate (a b : List Rat) (m : Nat) : List Rat :=
  (List.range (2 * m + 1)).map fun k : Nat => crossCorr (demean a) (demean b) ((k : Int) - m)

/-- `np.argmax`: the first place of the maximum; `best` is the place of the maximum so far, `i` the next place. -/
def argMaxGo (best : Nat) (top : Rat) (i : Nat) : List Rat → Nat
  | [] => best
  | x :: l => if top < x then argMaxGo i x (i + 1) l else argMaxGo best top (i + 1) l

def argMax : List Rat → Nat
  | [] => 0
  | x :: l => argMaxGo 0 x 1 l

/-- `xcorr_max(cc, abs_max = False)`: the shift. The length of `cc` is odd. -/
def maxShift (cc : List Rat) : Int := (argMax cc : Int) - ((cc.length - 1) / 2 : Nat)

/-- `np.round`: to the nearest integer, to the even one if there are two. -/
def roundEven (x : Rat) : Int :=
  if x - ⌊x⌋ < 1 / 2 then ⌊x⌋
  else if 1 / 2 < x - ⌊x⌋ then ⌊x⌋ + 1
  else if ⌊x⌋ % 2 = 0 then ⌊x⌋ else ⌊x⌋ + 1

/-- xcorr.py:353-354 `network.station.location` of an identifier `network.station.location.channel`. -/
def shortID (id : List Nat) : List Nat := joinDots ((pySplit 46 id).take 3)

/-- `output_dict[key] = value`. -/
def putItem (d : List (List Nat × Rat)) (kv : List Nat × Rat) : List (List Nat × Rat) :=
  if (d.map Prod.fst).contains kv.1 then d.map fun p => if p.1 = kv.1 then kv else p else d ++ [kv]

/-- What `xcorr_function` computes for a pair of traces besides the shift: the standard deviation of the first, and the maximum of the
normalized correlation. Both contain square roots and are parameters. -/
structure PairStats where
  rms : WTrace → Rat
  coef : WTrace → WTrace → Rat

/-- The samples of a trace. -/
def WTrace.values (tr : WTrace) : List Rat := tr.samples.map Prod.snd

/-- xcorr.py:358: the shift of a pair, in samples; at most one second (338). -/
def pairShift (dt : Rat) (p : WTrace × WTrace) : Int := maxShift (correlate p.1.values p.2.values (roundEven (1 / dt)).toNat)

/-- xcorr.py:355-360: the items of a pair. -/
def pairItems (ps : PairStats) (dt : Rat) (p : WTrace × WTrace) : List (List Nat × Rat) :=
  [(bytes "rms_" ++ shortID p.1.id, ps.rms p.1),
   (lagKey (shortID p.1.id) (shortID p.2.id), pairShift dt p * dt),
   (bytes "r_" ++ shortID p.1.id ++ bytes "_" ++ shortID p.2.id, ps.coef p.1 p.2)]

/-- xcorr.py:349-352: each trace with the next, the last with the first. -/
def tracePairs (st : List WTrace) : List (WTrace × WTrace) := st.zip (st.drop 1 ++ st.take 1)

/-- xcorr.py:361, 364: `|sum of shift / n| <= n`. -/
def consistent (shifts : List Int) : Bool :=
  decide (|(shifts.map fun s : Int => (s : Rat) / (shifts.length : Rat)).sum| ≤ (shifts.length : Rat))

/-- xcorr.py:335-366 `xcorr_function`, with `maxshift_seconds` 1; `prep` is detrending and tapering (345-346), `dt` the sampling interval of
the first trace. The error is that of `st[0]` for an empty stream. -/
def xcorrFunction (prep : List WTrace → List WTrace) (ps : PairStats) (dt : Rat) (st : List WTrace) : Except Exc (List (List Nat × Rat)) :=
  if st = [] then .error .other
  else
    let pairs := tracePairs (prep st)
    let d := (pairs.flatMap (pairItems ps dt)).foldl putItem
      [(bytes "mean_coef", (pairs.map fun p => ps.coef p.1 p.2 / (prep st).length).sum)]
    .ok (putItem d (bytes "consistency", if consistent (pairs.map (pairShift dt)) then 1 else 0))

/-! ## Identifiers -/

/-- `\w`, for ASCII. -/
def isWord (c : Nat) : Bool := (48 ≤ c && c ≤ 57) || (65 ≤ c && c ≤ 90) || c == 95 || (97 ≤ c && c ≤ 122)

/-- xcorr.py:449 `re.match(r'\w{0,2}\.\w{1,5}\.\w{0,2}\.\w{3}', ID)`: four words between dots, of which the last may go on after three
characters. -/
def fullID (id : List Nat) : Bool :=
  match pySplit 46 id with
  | net :: sta :: loc :: cha :: _ =>
    net.all isWord && decide (net.length ≤ 2) && sta.all isWord && decide (1 ≤ sta.length ∧ sta.length ≤ 5) &&
      loc.all isWord && decide (loc.length ≤ 2) && (cha.take 3).all isWord && decide (3 ≤ cha.length)
  | _ => false

/-- xcorr.py:444-458: the identifiers for one entry of the list; `search` is `re.search`. -/
def idsFor (search : List Nat → List Nat → Bool) (found : List (List Nat)) (id : List Nat) : List (List Nat) :=
  if fullID id then [id] else found.filter (search id)

/-- xcorr.py:432-468 `_check_input_IDs`; `all`: the identifiers of all traces in the files. -/
def checkInputIDs (search : List Nat → List Nat → Bool) (all : List (List Nat)) (wanted : Option (List (List Nat)))
    (unwanted : Option (List (List Nat))) : List (List Nat) :=
  let found := uniqueIn all
  let chosen :=
    match wanted with
    | none => found
    | some [] => found
    | some l => uniqueIn (l.flatMap (idsFor search found))
  match unwanted with
  | none => chosen
  | some ex => chosen.filter fun id => !ex.any fun e => search e id

/-- xcorr.py:181-276 `loop_through_days`, with the choice of identifiers; `sorted` (211) changes the order of a message only. -/
def loopChosen (search : List Nat → List Nat → Bool) (files : List DFile) (wanted unwanted : Option (List (List Nat))) (t1 t2 : Int) :
    Option (List (List DSample)) :=
  loopThroughDays files (checkInputIDs search ((fileTable files).map DRow.id) wanted unwanted) t1 t2

/-! ## Options -/

/-- A value given for an option: a number, NaN, or something that cannot be compared with a number (`None`, a string). -/
inductive OptVal
  | num (x : Rat)
  | nan
  | other
  deriving DecidableEq, Repr

/-- `a < b`; `none`: TypeError. -/
def OptVal.lt : OptVal → OptVal → Option Bool
  | .num a, .num b => some (decide (a < b))
  | .other, _ => none
  | _, .other => none
  | _, _ => some false

/-- `a >= b`. -/
def OptVal.ge : OptVal → OptVal → Option Bool
  | .num a, .num b => some (decide (b ≤ a))
  | .other, _ => none
  | _, .other => none
  | _, _ => some false

/-- `or` of conditions that may raise an exception. -/
def orElseRaise (a b : Option Bool) : Option Bool :=
  match a with
  | none => none
  | some true => some true
  | some false => b

/-- xcorr.py:284-309 `_validate_inputs`: are the values accepted? -/
def validateInputs (fl fh win overlap upsample : OptVal) : Bool :=
  decide (orElseRaise (fl.lt (.num 0)) (orElseRaise (fh.lt (.num 0)) (fl.ge fh)) = some false) &&
  decide (OptVal.ge (.num 0) win = some false) &&
  decide (overlap.ge (.num 0) = some true) && decide (overlap.lt (.num 1) = some true) &&
  decide (upsample.ge (.num 1) = some true)

/-- The items of the dictionary `args` that `xcorr_one_day` looks at; `none`: missing or `None`. -/
structure DayArgs where
  fl : Option OptVal
  fh : Option OptVal
  win : Option OptVal
  overlap : Option OptVal
  upsample : Option OptVal

/-- xcorr.py:313-318: the options in effect: band, window length, overlap, upsampling; `none`: the exception of `_validate_inputs`. Line 317
tests `overlap`, not `upsample_ratio`. -/
def dayOptions (a : DayArgs) : Option (OptVal × OptVal × OptVal × OptVal × OptVal) :=
  let fl := a.fl.getD (.num 5)
  let fh := a.fh.getD (.num 40)
  let win := a.win.getD (.num 5)
  let overlap := a.overlap.getD (.num 0)
  let upsample := match a.overlap with
    | some _ => a.upsample.getD .other
    | none => .num 1
  if validateInputs fl fh win overlap upsample then some (fl, fh, win, overlap, upsample) else none

/-! ## Upsampling -/

/-- A trace with its sampling interval. -/
structure UTrace where
  start : Rat
  delta : Rat
  data : List Rat
  deriving DecidableEq, Repr

/-- xcorr.py:529-536 `upsample_stream`, for one trace with samples; `spline data t` is `CubicSpline(np.arange(npts), data)(t)`, a parameter.
`np.arange(x)` has as many elements as there are whole numbers from 0 below `x`. -/
def upsampleTrace (spline : List Rat → Rat → Rat) (n : Rat) (tr : UTrace) : UTrace :=
  ⟨tr.start, tr.delta / n, (List.range ⌈n * ((tr.data.length : Rat) - 1)⌉.toNat).map fun k : Nat => spline tr.data (k / n)⟩

end Gemlog
