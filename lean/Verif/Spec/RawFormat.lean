import Verif.Py.Str

/-!
# Specification of the documented raw line format

Written from the format description in parsers.pyx:93-125 (`D7780,-1`,
`G,msPPS,msLag,yr,mo,day,hr,min,sec,lat,lon`, `M,ms,batt,...`), without using the parser.
-/

namespace Gemlog

/-- A decimal number as printed: sign, integer part, fractional digits (ASCII codes). -/
structure Dec where
  neg : Bool
  ip : Nat
  fp : List Nat
  fpDigits : ∀ b ∈ fp, isDigit b = true

/-- The number denoted. -/
def Dec.val (x : Dec) : Rat :=
  (if x.neg then -1 else 1) * ((x.ip : Rat) + (digitsVal x.fp : Rat) / 10 ^ x.fp.length)

/-- The text: `-12.50`, `12.50`, or `12` when there are no fractional digits. -/
def Dec.text (x : Dec) : List Nat :=
  (if x.neg then [45] else []) ++ natStr x.ip ++ (if x.fp = [] then [] else 46 :: x.fp)

/-- A decimal number without fraction. -/
def Dec.ofNat (n : Nat) : Dec := ⟨false, n, [], by simp⟩

/-- A printed field: an integer or a decimal number. -/
inductive Field
  | int (z : Int)
  | dec (x : Dec)

def Field.val : Field → Rat
  | .int z => z
  | .dec x => x.val

def Field.text : Field → List Nat
  | .int z => intStr z
  | .dec x => x.text

/-- Fields separated by commas. -/
def joinFields : List Field → List Nat
  | [] => []
  | [f] => f.text
  | f :: fs => f.text ++ 44 :: joinFields fs

/-- `D<millis>,<counts>\n`. -/
def lineD (t : Dec) (adc : Int) : List Nat := 68 :: joinFields [.dec t, .int adc] ++ [10]

/-- `G,msPPS,msLag,yr,mo,day,hr,min,sec,lat,lon\n`. -/
def lineG (msPPS msLag : Dec) (yr mo day hr mn : Int) (sec lat lon : Dec) : List Nat :=
  71 :: 44 :: joinFields [.dec msPPS, .dec msLag, .int yr, .int mo, .int day, .int hr, .int mn,
    .dec sec, .dec lat, .dec lon] ++ [10]

/-- `M,ms,batt,temp,A2,A3,maxLag,minFree,maxUsed,maxOver,gpsFlag,freeStack1,freeStackIdle\n`. -/
def lineM (ms batt temp a2 a3 : Dec) (maxLag minFree maxUsed maxOver gpsFlag fs1 fsIdle : Int) :
    List Nat :=
  77 :: 44 :: joinFields [.dec ms, .dec batt, .dec temp, .dec a2, .dec a3, .int maxLag,
    .int minFree, .int maxUsed, .int maxOver, .int gpsFlag, .int fs1, .int fsIdle] ++ [10]

/-- A file content that ends at a line boundary. -/
def EndsLine (content : List Nat) : Prop := content = [] ∨ content.getLast? = some 10

example : lineD (.ofNat 7780) (-1) = bytes "D7780,-1\n" := by decide +kernel
example : lineG (.ofNat 8171) (.ofNat 70) 2020 6 20 5 21 ⟨false, 22, [48], by decide⟩
    ⟨false, 43, bytes "62226", by decide⟩ ⟨true, 116, bytes "20594", by decide⟩
  = bytes "G,8171,70,2020,6,20,5,21,22.0,43.62226,-116.20594\n" := by decide +kernel

end Gemlog
