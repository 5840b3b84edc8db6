import Verif.Model.Batch
import Verif.Model.Cli
import Verif.Model.ReadGem
import Verif.Model.Reference
import Verif.Lemmas.Convert

/-!
# gemconvert as a whole

Models `convert_single_SN` (gemconvert.py:24-48): what becomes of the arguments of one conversion. It ties the command line (`Model/Cli.lean`) to
the conversion (`Model/ReadGem.lean`) and to its actions on the disk (`Model/Batch.lean`).
-/

namespace Gemlog

/-- A piece of a file: lines of a summary table (their content is the subject of `Model/Tables.lean`), or a segment of the record. -/
inductive FilePiece where
  | rows (text : List Nat)
  | wave (tr : Trace)
  deriving DecidableEq, Repr

/-- gemconvert.py:84, core.py:127 `file_length_sec = 3600 * float(file_length_hour)`, in microseconds; `none`: ValueError. Simplification: no
infinite lengths. -/
def lengthMicros : Option (List Nat) → Option Rat
  | none => some (24 * 3600000000)
  | some text => (pyFloat text).map fun x => x * 3600000000

/-- core.py:492-493, 532-534, 1313: the identifier of the traces: network, station (the serial number, if not given), location, channel. -/
def traceId (a : ConvArgs) : List Nat :=
  a.network ++ bytes "." ++ (if a.station = [] then a.sn else a.station) ++ bytes "." ++ a.location ++ bytes "." ++ bytes "HDF"

/-- The segment an instruction writes. -/
def Instr.wave? : Instr FilePiece → Option Trace
  | .segment _ (.wave tr) => some tr
  | _ => none

/-- core.py:278-334: what the loops do to the disk: they write the segments `out`, in order, each under the name of its start, and in between
append to the summary files. -/
def Carries (rest : List (Instr FilePiece)) (out : List Trace) : Prop :=
  rest.filterMap Instr.wave? = out ∧
    ∀ x ∈ rest, (∃ k t, x = .extend k (.rows t)) ∨ ∃ tr, x = .segment tr.start (.wave tr)

/-- core.py:31-335: the actions of a conversion that ends with the result given. If it raises an exception before writing a segment, it may not
have got to the folders. -/
def DoneBy (todo : List (Instr FilePiece)) : Run CState → Prop
  | .running => False
  | .done s => ∃ m g rest, todo = procInstrs (.rows m) (.rows g) rest ∧ Carries rest s.w.out
  | .raised _ out => (todo = [.fail] ∧ out = []) ∨
      ∃ m g rest, todo = procInstrs (.rows m) (.rows g) (rest ++ [.fail]) ∧ Carries rest out

/-- core.py:221-222: the end of a conversion without `t2`, in microseconds: 9999-12-31 23:59:59. -/
def endOfTime : Int := 253402300799000000

/-- gemconvert.py:24-48 `convert_single_SN`: `j` is the conversion with the arguments `a` of a folder with entries `dir`. The defaults of `convert`
apply (core.py:31-34): all files, blocks of one day, no limits in time. Simplification: only file lengths of whole microseconds. -/
structure IsConversion (env : Env) (dir : List Entry) (a : ConvArgs) (j : Proc FilePiece) : Prop where
  sn : j.sn = a.sn
  id : j.id = traceId a
  fmt : j.fmt = a.format
  fresh : j.gpsFile = none ∧ j.metaFile = none
  todo : (lengthMicros a.lengthHours = none ∧ j.todo = [.fail]) ∨
    ∃ (L : Int) (r : Run CState), lengthMicros a.lengthHours = some (L : Rat) ∧
      Settles (convertDir env true dir a.sn [none] 1 L none endOfTime) r ∧ DoneBy j.todo r

end Gemlog
