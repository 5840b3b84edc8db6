import Verif.Model.Names
import Verif.Model.Readers

/-!
# The instrument response

Models `_read_response`, `get_gem_response` and `deconvolve_gem_response` (gem_network.py:18-54, 68-69, 71-136).
Simplifications: a response stage is its gain, its relative magnitude as a function of frequency and its input units (phases and descriptions
are left out); a trace is the amplitude of each frequency in it, and `remove_response` divides it by the response of all stages (its
taper, its water level and its differentiation, which do not depend on the gain, are left out).
-/

namespace Gemlog

/-- A stage of an obspy `Response`. -/
structure Stage where
  gain : Rat
  shape : Rat → Rat
  units : List Nat

/-- An obspy `Response`: stages, and value and input units of the overall sensitivity. -/
structure Resp where
  stages : List Stage
  sensitivity : Rat
  units : List Nat

/-- The response of all stages at a frequency. -/
def Resp.at (r : Resp) (f : Rat) : Rat := r.stages.foldl (fun a s => a * (s.gain * s.shape f)) 1

/-- gem_network.py:112. -/
def sensorName : List Nat := bytes "RESP.XX.IS025..BDF.GEMV1.26.0_0022"

/-- gem_network.py:117 and 119. -/
def loggerName : List Nat := bytes "RESP.XX.GM002..HHZ.GEMINFRAV1.0.100"

/-- gem_network.py:115-121: the name of the file for the logger. -/
def chooseLogger (gain loggerFile : List Nat) : Except Exc (List Nat) :=
  if loggerFile = [] then
    if lower gain = bytes "high" then .ok loggerName                                         -- 116-117
    else if lower gain = bytes "low" then .ok loggerName                                     -- 118-119
    else .error .other                                                                       -- 120-121
  else .ok loggerFile

/-- gem_network.py:124-136: the response of the logger, its first stage replaced by that of the sensor. `filterGain` is
`np.abs(1-1/(1+0.05j/0.039))`. An IndexError if stages are missing. -/
def joinResponses (filterGain : Rat) (sensor logger : Resp) : Except Exc Resp :=
  match logger.stages, sensor.stages with
  | _ :: rest, s :: _ =>
    match rest[1]? with
    | some adc => .ok ⟨s :: rest, s.gain * adc.gain * filterGain, s.units⟩
    | none => .error .other
  | _, _ => .error .other

/-- gem_network.py:71-136 `get_gem_response(gain, sensor_file, logger_file)`. `sensors` and `loggers`: the two folders of responses that come with
gemlog, by file name (`_read_response`, 68-69). -/
def getGemResponse (filterGain : Rat) (sensors loggers : List Nat → Except Exc Resp) (gain sensorFile loggerFile : List Nat) : Except Exc Resp := do
  let sensor ← sensors (if sensorFile = [] then sensorName else sensorFile)                  -- 111-113
  let name ← chooseLogger gain loggerFile
  let logger ← loggers name                                                                  -- 122
  joinResponses filterGain sensor logger

/-- What `deconvolve_gem_response` can be given. -/
inductive WaveData
  | trace (amplitude : Rat → Rat)
  | stream (traces : List (Rat → Rat))
  | other

/-- obspy's `Trace.remove_response`, frequency by frequency. -/
def removeResp (r : Resp) (amplitude : Rat → Rat) : Rat → Rat := fun f => amplitude f / r.at f

/-- gem_network.py:18-54 `deconvolve_gem_response(data, gain, sensor_file, logger_file)`: the data returned, which are also what the input has
become (53-54: it is changed in place). -/
def deconvolveGem (filterGain : Rat) (sensors loggers : List Nat → Except Exc Resp) (data : WaveData) (gain sensorFile loggerFile : List Nat) :
    Except Exc WaveData :=
  match data with
  | .stream [] => .ok (.stream [])
  | .stream traces => (getGemResponse filterGain sensors loggers gain sensorFile loggerFile).map fun r => .stream (traces.map (removeResp r))
  | .trace a => (getGemResponse filterGain sensors loggers gain sensorFile loggerFile).map fun r => .trace (removeResp r a)
  | .other => .error .other                                                                  -- 50

end Gemlog
