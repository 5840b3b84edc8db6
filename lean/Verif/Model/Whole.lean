import Verif.Model.ReadGem
import Verif.Model.GemCat

/-!
# Reading a directory from the contents of its files

Puts together the models of the readers (core.py:677-930), the clock regression (core.py:1097-1173) and `read_gem`
(core.py:413-547): given the contents of the files, nothing is left open but library functions.
-/

namespace Gemlog

/-- The files and what reading them depends on besides: the table readers based on pandas (`_read_with_pandas`, core.py:756-782, and
`_read_0_8_pd`, core.py:720-754), `_read_SN` (core.py:581-587), the gain code of `_read_config` (core.py:601-618), the
uninitialised line buffers of the compiled parser, whether pandas raises for an empty GPS table (see `gpsTable`), the clock, the
polynomial fitter and the spline. -/
structure RawDisk where
  content : Entry → List Nat
  pandas : Entry → Bool → Except Exc Table
  old : Entry → Bool → Except Exc Table
  readSN : Entry → Except Exc String
  adc : Entry → Int
  buf0 : List Nat
  buf1 : List Nat
  emptyRaises : Bool
  now : Rat
  fit : Fitter
  spline : Spliner

/-- core.py:784-841 `_read_single`, from the content of the file. -/
def RawDisk.readSingle (d : RawDisk) (e : Entry) (offset : Rat) (requireGps : Bool) (version : String) : Except Exc FileData :=
  Gemlog.readSingle d.emptyRaises
    ⟨(readWithCython d.buf0 d.buf1 requireGps (some (d.content e))).map cythonTable, d.pandas e requireGps, d.old e requireGps⟩
    offset requireGps version

/-- What `read_gem` uses (core.py:413-547). -/
def RawDisk.env (d : RawDisk) : Env :=
  ⟨⟨d.readSingle, fun _ L rg => calculateDrift d.fit L rg, d.readSN⟩, fun e => formatVersion (d.content e), d.adc, d.now, d.spline⟩

end Gemlog
