import Verif.Model.Huddle
import Verif.Model.Tables

/-!
# The metadata file of a conversion, read by the huddle test

Links `convert` (core.py:246-256, 306, which write the status rows of the blocks) with `verify_huddle_test` (huddle_test.py:288, which reads the file again).
-/

namespace Gemlog

/-- The cell of a status row in a column, counted from the first after `millis`. -/
def metaCell (m : Rat × List (Option Rat) × Option Rat) (k : Nat) : Option Rat := m.2.1.getD k none

/-- A status row as `pd.read_csv` finds it in the metadata file (huddle_test.py:288). The columns are those of core.py:847-849, in that order, the number of the line (core.py:930), which the tests do not use, and `t`
(core.py:1257). Simplification: the text of a number is read back as the number, and an empty cell as NaN. -/
def huddleRowOf (m : Rat × List (Option Rat) × Option Rat) : HuddleRow :=
  { t := m.2.2, batt := metaCell m 0, temp := metaCell m 1, A2 := metaCell m 2, A3 := metaCell m 3, maxFifoUsed := metaCell m 6,
    maxOverruns := metaCell m 7, gpsOnFlag := metaCell m 8, unusedStack1 := metaCell m 9, unusedStackIdle := metaCell m 10 }

/-- The rows of the metadata file of a conversion. -/
def metaLogOf (tb : Tables) : List HuddleRow := tb.metadata.map huddleRowOf

end Gemlog
