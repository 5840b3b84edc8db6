import Verif.Py.Num

/-!
# C input primitives: `fgets` and `sscanf`

Bytes are natural numbers. A C string is the part of a buffer before its first NUL.
`sscanf` follows glibc for the directives `%d` and `%lf` separated by literal commas.
Not modelled: hexadecimal floats, `inf`/`nan` tokens (a conversion failure here),
overflow of `int` and `double`.
-/

namespace Gemlog

/-- The bytes of an ASCII string literal. -/
def bytes (s : String) : List Nat := s.toList.map Char.toNat

/-- Repeated `fgets(line, 256, f)`: pieces of at most 255 bytes, each ending at the first newline,
after 255 bytes, or at the end of the file. `cur` is the piece being read. -/
def chunkGo (cur : List Nat) : List Nat → List (List Nat)
  | [] => if cur = [] then [] else [cur]
  | b :: l =>
    if b = 10 ∨ cur.length = 254 then (cur ++ [b]) :: chunkGo [] l else chunkGo (cur ++ [b]) l

/-- All pieces returned by `fgets(line, 256, f)` for a file with this content. -/
def fgetsChunks (content : List Nat) : List (List Nat) := chunkGo [] content

/-- C `isspace` in the "C" locale. -/
def isSpace (b : Nat) : Bool := b = 32 || (9 ≤ b && b ≤ 13)

/-- C `isdigit`. -/
def isDigit (b : Nat) : Bool := 48 ≤ b && b ≤ 57

/-- Value of a digit string, most significant digit first. -/
def digitsVal (l : List Nat) : Nat := l.foldl (fun a b => 10 * a + (b - 48)) 0

/-- Optional sign: `true` if negative. -/
def scanSign : List Nat → Bool × List Nat
  | 45 :: l => (true, l)
  | 43 :: l => (false, l)
  | l => (false, l)

/-- `sscanf` directive `%d`: value and remaining input, `none` on a matching or input failure. -/
def scanInt (s : List Nat) : Option (Int × List Nat) :=
  let (neg, s) := scanSign (s.dropWhile isSpace)
  let ds := s.takeWhile isDigit
  if ds = [] then none
  else some (if neg then -(digitsVal ds : Int) else digitsVal ds, s.dropWhile isDigit)

/-- Exponent part of a decimal floating-point number: `e`, optional sign, digits. glibc consumes
the `e` (and sign) even if no digit follows; the exponent then counts as 0. -/
def scanExp : List Nat → Int × List Nat
  | b :: l =>
    if b = 101 ∨ b = 69 then
      let (neg, s) := scanSign l
      let v : Int := digitsVal (s.takeWhile isDigit)
      (if neg then -v else v, s.dropWhile isDigit)
    else (0, b :: l)
  | [] => (0, [])

/-- Fractional part: `.` and digits. -/
def scanFrac : List Nat → List Nat × List Nat
  | 46 :: l => (l.takeWhile isDigit, l.dropWhile isDigit)
  | l => ([], l)

/-- `sscanf` directive `%lf` for decimal numbers. -/
def scanLf (s : List Nat) : Option (Rat × List Nat) :=
  let (neg, s) := scanSign (s.dropWhile isSpace)
  let ip := s.takeWhile isDigit
  let (fp, s) := scanFrac (s.dropWhile isDigit)
  if ip = [] ∧ fp = [] then none
  else
    let (e, s) := scanExp s
    let m : Rat := (digitsVal ip : Rat) + (digitsVal fp : Rat) / (10 : Rat) ^ fp.length
    some ((if neg then -m else m) * (10 : Rat) ^ e, s)

/-- A conversion directive. -/
inductive Conv
  | d
  | lf
  deriving DecidableEq, Repr

/-- One conversion, as a number. -/
def scanConv : Conv → List Nat → Option (Rat × List Nat)
  | .d, s => (scanInt s).map fun (v, r) => ((v : Rat), r)
  | .lf, s => scanLf s

/-- `sscanf` with comma-separated directives: the values assigned (a prefix of the directives). The
return value of the C call is the length of this list, or EOF (-1) instead of 0 if the input ended
before the first conversion; the code never distinguishes 0 from -1. -/
def sscanf : List Conv → List Nat → List Rat
  | [], _ => []
  | c :: cs, s =>
    match scanConv c s with
    | none => []
    | some (v, 44 :: r) => v :: sscanf cs r
    | some (v, _) => [v]

/-- The C string starting at index `k` of a buffer. -/
def cstr (buf : List Nat) (k : Nat) : List Nat := (buf.drop k).takeWhile (· ≠ 0)

end Gemlog
