import Verif.Model.Select
import Verif.Py.Num

/-!
# Instrument specifications

Models `__AVCC__`, `__gain__`, `get_gem_specs` and `get_bitweight_info` (core.py:1347-1408), the choice of the bitweight in
`convert` (core.py:205-212) and the values of `_read_config` that are used. Numbers are exact rationals instead of floats.
-/

namespace Gemlog

/-- core.py:1347-1351 (this function replaces the array of the same name in line 1346). -/
def avcc (version : Rat) : Rat := if version ≥ 90 / 100 then 31 / 10 else 3373 / 1000

/-- core.py:1353-1357. -/
def adcGain (version : Rat) : Rat :=
  if version ≥ 98 / 100 then 1 + 50 / (470 / 1000) else 1 + (494 / 10) / (470 / 1000)

/-- core.py:1375-1378 `versionTable`: version, smallest and largest serial number; `none` is infinity. -/
def versionTable : List (Rat × Int × Option Int) :=
  [(5 / 10, 3, some 7), (7 / 10, 8, some 14), (8 / 10, 15, some 19), (82 / 100, 20, some 37), (9 / 10, 38, some 40),
   (91 / 100, 41, some 43), (92 / 100, 44, some 46), (98 / 100, 47, some 49), (99 / 100, 50, some 51),
   (991 / 1000, 52, some 54), (992 / 1000, 55, some 57), (1, 58, some 107), (101 / 100, 108, none)]

/-- Is the number in the range of a row? -/
def inRow (n : Int) (row : Rat × Int × Option Int) : Bool :=
  decide (n ≥ row.2.1) && (match row.2.2 with | some m => decide (n ≤ m) | none => true)

structure Specs where
  version : Rat
  bitweightV : Rat
  bitweightPa : Rat
  deriving DecidableEq, Repr

/-- core.py:1380-1385. -/
def specsOf (version : Rat) : Specs :=
  let bitweightV := 256 / 1000 / 2 ^ 15 / adcGain version
  let sensitivity := avcc version / 7 * (4513 / 100000000)
  ⟨version, bitweightV, bitweightV / sensitivity⟩

/-- core.py:1359-1385 `get_gem_specs(SN)` for `int(SN) = n`; the index `[0]` of an empty array raises IndexError. -/
def gemSpecs (n : Int) : Except Exc Specs :=
  match (versionTable.filter (inRow n)).head? with
  | none => .error .other
  | some row => .ok (specsOf row.1)

/-- Python `str.upper` for ASCII. -/
def upper (s : List Nat) : List Nat := s.map fun c => if 97 ≤ c ∧ c ≤ 122 then c - 32 else c

/-- core.py:1389-1408 `get_bitweight_info(SN, config, units)`: the specifications and the bitweight. `adc` is
`config['adc_range']`. `int(SN)` may raise ValueError. -/
def bitweightInfo (SN : List Nat) (adc : Int) (units : List Nat) : Except Exc (Specs × Rat) :=
  if adc ≠ 0 ∧ adc ≠ 1 then .error .baseOther
  else
    let multiplier : Rat := if adc = 0 then 1 else 2
    match pyInt SN with
    | none => .error .other
    | some n =>
      match gemSpecs n with
      | .error x => .error x
      | .ok s =>
        let s : Specs := { s with bitweightPa := s.bitweightPa * multiplier, bitweightV := s.bitweightV * multiplier }
        if upper units = bytes "PA" then .ok (s, s.bitweightPa)
        else if upper units = bytes "V" then .ok (s, s.bitweightV)
        else if lower units = bytes "counts" then .ok (s, 1)
        else .error .baseOther

/-- core.py:205-212: the bitweight written into the converted files; `none` is NaN. `given`: the argument `bitweight`;
`s`: the specifications in the header of the first block. -/
def convertBitweight (given : Option Rat) (s : Specs) (units : List Nat) : Option Rat :=
  match given with
  | some b => some b
  | none =>
    if units = bytes "Pa" then some s.bitweightPa
    else if units = bytes "V" then some s.bitweightV
    else if units = bytes "Counts" ∨ units = bytes "counts" then some 1
    else none

end Gemlog
