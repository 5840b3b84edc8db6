import Verif.Model.Response

/-!
# Specification: what a sensor and a logger make of pressure
-/

namespace Gemlog

/-- The amplitude, in counts, that a pressure of amplitude `p` at frequency `f` leaves in the file: the sensor turns pressure into voltage, and
every stage of the logger multiplies it. -/
def countsOf (sensor : Stage) (logger : List Stage) (p f : Rat) : Rat :=
  p * (sensor.gain * sensor.shape f) * (logger.map fun s => s.gain * s.shape f).prod

/-- The same stages with half the gain in the second of them (the analogue to digital conversion). -/
def halfGain : List Stage → List Stage
  | a :: b :: l => a :: { b with gain := b.gain / 2 } :: l
  | l => l

end Gemlog
