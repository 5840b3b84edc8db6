import Verif.Py.Str

/-!
# Specification: numbers as they may be written in a line

Blanks, an optional sign, digits with or without a decimal point, and an optional power of ten: `17`, `+17`, ` 017`, `-.5`,
`5.`, `1.7e1`, `17E-02`.
-/

namespace Gemlog

inductive Sign
  | none
  | plus
  | minus

def Sign.text : Sign → List Nat
  | .none => []
  | .plus => [43]
  | .minus => [45]

def Sign.apply (s : Sign) (x : Rat) : Rat :=
  match s with
  | .minus => -x
  | _ => x

/-- A written number; digits are ASCII codes. -/
structure Number where
  pad : List Nat
  sign : Sign
  ip : List Nat
  point : Bool
  fp : List Nat
  exp : Option (Bool × Sign × List Nat)

/-- The power of ten: `e` or `E`, a sign, digits. -/
def expText : Option (Bool × Sign × List Nat) → List Nat
  | .none => []
  | some (capital, sign, digits) => (if capital then 69 else 101) :: (sign.text ++ digits)

def Number.text (x : Number) : List Nat :=
  x.pad ++ (x.sign.text ++ (x.ip ++ ((if x.point then 46 :: x.fp else []) ++ expText x.exp)))

/-- The power of ten it is multiplied by. -/
def expVal : Option (Bool × Sign × List Nat) → Rat
  | .none => 1
  | some (_, .minus, digits) => 1 / (10 : Rat) ^ digitsVal digits
  | some (_, _, digits) => (10 : Rat) ^ digitsVal digits

/-- The number denoted. -/
def Number.val (x : Number) : Rat :=
  x.sign.apply ((digitsVal x.ip : Rat) + (digitsVal x.fp : Rat) / 10 ^ x.fp.length) * expVal x.exp

structure Number.Valid (x : Number) : Prop where
  pad : ∀ b ∈ x.pad, b = 32 ∨ b = 9
  ip : ∀ b ∈ x.ip, 48 ≤ b ∧ b ≤ 57
  fp : ∀ b ∈ x.fp, 48 ≤ b ∧ b ≤ 57
  some_digit : x.ip ≠ [] ∨ x.fp ≠ []
  no_point : x.point = false → x.fp = []
  exp : ∀ c s d, x.exp = some (c, s, d) → d ≠ [] ∧ ∀ b ∈ d, 48 ≤ b ∧ b ≤ 57

/-- Written as a whole number: without point and power of ten. -/
def Number.Whole (x : Number) : Prop := x.point = false ∧ x.exp = .none

/-- Numbers separated by commas. -/
def joinNumbers : List Number → List Nat
  | [] => []
  | [x] => x.text
  | x :: l => x.text ++ 44 :: joinNumbers l

example : (Number.mk [32] .plus (bytes "017") true (bytes "50") (some (true, .minus, bytes "01"))).text = bytes " +017.50E-01" ∧
    (Number.mk [32] .plus (bytes "017") true (bytes "50") (some (true, .minus, bytes "01"))).val = 7 / 4 := by decide +kernel

end Gemlog
