import Mathlib.Data.Rat.Floor
import Verif.Model.Names

/-!
# Writing a trace as a sound file

Models core.py:358-390 `write_wav` and its use in core.py:345-354. Samples are exact rational numbers (the program
uses 64-bit floats). Not modelled: the bytes of the file, which are left to `scipy.io.wavfile.write`.
-/

namespace Gemlog

/-- The arithmetic mean (`np.mean` of a non-empty array). -/
def wavMean (xs : List Rat) : Rat := xs.sum / (xs.length : Rat)

/-- core.py:384: the largest absolute value (`np.abs(..).max()` of a non-empty array). -/
def largestAbs (xs : List Rat) : Rat := xs.foldl (fun m x => max m |x|) 0

/-- What `scipy.io.wavfile.write` is given: the sample rate and the samples. -/
structure WavFile where
  rate : Int
  data : List Rat
  deriving DecidableEq, Repr

/-- The exceptions of `write_wav`. -/
inductive WavExc where
  /-- `max` of an empty array (core.py:384). -/
  | valueError
  /-- The sample rate is not a whole number (core.py:389). -/
  | typeError
  deriving DecidableEq, Repr

/-- core.py:383: the samples around zero. -/
def centred (xs : List Rat) : List Rat := xs.map fun x => x - wavMean xs

/-- core.py:385-386: scaled by the largest absolute value, if it is positive. -/
def scaled (xs : List Rat) : List Rat := if largestAbs xs > 0 then xs.map fun x => x / largestAbs xs else xs

/-- `int(x)` of a number: truncation. -/
def truncRat (x : Rat) : Int := if 0 ≤ x then ⌊x⌋ else ⌈x⌉

/-- core.py:383-390 `write_wav(tr)`: the file written or the exception, and the samples that the caller's trace
holds afterwards (`tr.data` is assigned). -/
def writeWav (xs : List Rat) (rate : Rat) : Except WavExc WavFile × List Rat :=
  if xs = [] then (.error .valueError, [])
  else
    let ys := scaled (centred xs)
    if (truncRat rate : Rat) ≠ rate then (.error .typeError, ys)
    else (.ok ⟨truncRat rate, ys⟩, ys)

/-- core.py:346-352: the sound files of a conversion; `rate` is the sampling rate, `out` the segments written. Each
segment is handled on its own. -/
def wavFiles (id : List Nat) (rate : Rat) (out : List Trace) : List (List Nat × Except WavExc WavFile) :=
  (out.filter fun tr => decide (tr.data.length > 0)).map fun tr =>
    (convertedName id (bytes "wav") tr.start, (writeWav (tr.data.map fun (x : Int) => (x : Rat)) rate).1)

end Gemlog
