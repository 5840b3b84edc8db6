import Verif.Py.PyInt
import Verif.Model.Names

/-!
# The command line of gemconvert

Models Python's `getopt` and `main` of gemconvert.py (74-226) up to the list of conversions handed to the process pool.
Strings are lists of character codes.
-/

namespace Gemlog

/-! ## getopt -/

/-- `getopt.short_has_arg`: is the character an option, and does it take an argument? `none`: GetoptError. -/
def shortHasArg (opt : Nat) : List Nat → Option Bool
  | [] => none
  | c :: l => if opt = c ∧ c ≠ 58 then some (l.head? = some 58) else shortHasArg opt l

/-- `getopt.do_shorts`: the value of an option: the rest of the word, or the next word. -/
def takeValue : List Nat → List (List Nat) → Option (List Nat × List (List Nat))
  | [], [] => none
  | [], a :: args => some (a, args)
  | c :: r, args => some (c :: r, args)

/-- `getopt.do_shorts`: a group of one-letter options, then the arguments that follow. Result: options with arguments,
and the remaining arguments. -/
def doShorts (shortopts : List Nat) : List Nat → List (List Nat) → Option (List (List Nat × List Nat) × List (List Nat))
  | [], args => some ([], args)
  | opt :: rest, args =>
    match shortHasArg opt shortopts with
    | none => none
    | some true => (takeValue rest args).map fun v => ([([45, opt], v.1)], v.2)
    | some false => (doShorts shortopts rest args).map fun r => (([45, opt], []) :: r.1, r.2)

/-- `getopt.long_has_args`: the option meant, and whether it takes an argument. -/
def longHasArgs (opt : List Nat) (longopts : List (List Nat)) : Option (Bool × List Nat) :=
  let possible := longopts.filter fun o => opt.isPrefixOf o
  if possible = [] then none
  else if opt ∈ possible then some (false, opt)
  else if opt ++ [61] ∈ possible then some (true, opt)
  else
    match possible with
    | [o] => if o.getLast? = some 61 then some (true, o.dropLast) else some (false, o)
    | _ => none

/-- `getopt.do_longs`: one long option (without the leading `--`). -/
def doLongs (longopts : List (List Nat)) (arg : List Nat) (args : List (List Nat)) :
    Option ((List Nat × List Nat) × List (List Nat)) :=
  let opt := arg.takeWhile fun c => c ≠ 61
  let optarg := if 61 ∈ arg then some (arg.drop (opt.length + 1)) else none
  match longHasArgs opt longopts with
  | none => none
  | some (true, o) =>
    match optarg, args with
    | some a, args => some ((45 :: 45 :: o, a), args)
    | none, a :: args => some ((45 :: 45 :: o, a), args)
    | none, [] => none
  | some (false, o) => if optarg.isSome then none else some ((45 :: 45 :: o, []), args)

/-- `getopt.getopt`: the options in order; what follows the first non-option is ignored by the callers. `none`:
GetoptError. Fuel: the number of arguments. -/
def getoptGo (shortopts : List Nat) (longopts : List (List Nat)) : Nat → List (List Nat) → Option (List (List Nat × List Nat))
  | 0, _ => some []
  | _ + 1, [] => some []
  | fuel + 1, a :: args =>
    if a = [45, 45] then some []
    else if a.take 2 = [45, 45] then
      match doLongs longopts (a.drop 2) args with
      | none => none
      | some (o, args) => (getoptGo shortopts longopts fuel args).map fun os => o :: os
    else if a.head? = some 45 ∧ a ≠ [45] then
      match doShorts shortopts (a.drop 1) args with
      | none => none
      | some (os, args) => (getoptGo shortopts longopts fuel args).map fun os' => os ++ os'
    else some []

def getopt (shortopts : List Nat) (longopts : List (List Nat)) (args : List (List Nat)) : Option (List (List Nat × List Nat)) :=
  getoptGo shortopts longopts args.length args

/-! ## Options -/

/-- The settings of a run (gemconvert.py:78-87). `lengthHours`: `none` is the default 24, otherwise the text given. -/
structure CliOpts where
  inputdir : List Nat := bytes "raw"
  sns : Option (List (List Nat)) := none
  exclude : List (List Nat) := []
  codes : Option (List Nat) := none
  test : Bool := false
  outputdir : Option (List Nat) := none
  format : List Nat := bytes "MSEED"
  lengthHours : Option (List Nat) := none
  processes : Int := 1
  deriving DecidableEq, Repr

/-- The branches of gemconvert.py:96-127. -/
inductive OptKind where
  | help | debug | inputdir | serialnumbers | exclude | codesfile | test | outputdir | format | length | parallel
  deriving DecidableEq, Repr

/-- gemconvert.py:96-122: the names tested, in order. -/
def optTable : List (List Nat × OptKind) :=
  [(bytes "-h", .help), (bytes "--help", .help), (bytes "-d", .debug), (bytes "--debug", .debug),
    (bytes "-i", .inputdir), (bytes "--inputdir", .inputdir), (bytes "-s", .serialnumbers),
    (bytes "--serialnumbers", .serialnumbers), (bytes "-x", .exclude), (bytes "--exclude_serialnumbers", .exclude),
    (bytes "-c", .codesfile), (bytes "--codesfile", .codesfile), (bytes "-t", .test), (bytes "--test", .test),
    (bytes "-o", .outputdir), (bytes "--outputdir", .outputdir), (bytes "-f", .format), (bytes "--format", .format),
    (bytes "-l", .length), (bytes "--length", .length), (bytes "-p", .parallel), (bytes "--parallel", .parallel)]

/-- gemconvert.py:96-122: the branch taken. -/
def optKind (opt : List Nat) : Option OptKind := (optTable.find? fun e => e.1 = opt).map Prod.snd

/-- gemconvert.py:94-127: one option; `none`: the help text is printed and the program ends. -/
def applyOpt (o : CliOpts) (oa : List Nat × List Nat) : Option CliOpts :=
  match optKind oa.1 with
  | some .help => none
  | some .debug => some o
  | some .inputdir => some { o with inputdir := oa.2 }
  | some .serialnumbers => some { o with sns := some (splitComma oa.2) }
  | some .exclude => some { o with exclude := splitComma oa.2 }
  | some .codesfile => some { o with codes := some oa.2 }
  | some .test => some { o with test := true }
  | some .outputdir => some { o with outputdir := some oa.2 }
  | some .format => some { o with format := oa.2 }
  | some .length => some { o with lengthHours := some oa.2 }
  | some .parallel =>
    match pyInt oa.2 with
    | some n => some { o with processes := n }
    | none => some o
  | none => some o

/-- gemconvert.py:94-127: all options in order. -/
def applyOpts (o : CliOpts) : List (List Nat × List Nat) → Option CliOpts
  | [] => some o
  | x :: l =>
    match applyOpt o x with
    | none => none
    | some o' => applyOpts o' l

/-! ## Serial numbers -/

/-- gemconvert.py:16-18 `find_SN`: characters 9 to 12 of the file name. -/
def findSN (x : List Nat) : List Nat := (x.drop 9).take 4

/-- Python string comparison. -/
def strLt : List Nat → List Nat → Bool
  | [], [] => false
  | [], _ :: _ => true
  | _ :: _, [] => false
  | a :: x, b :: y => a < b || (a == b && strLt x y)

/-- Insert into a sorted list without repetition. -/
def insertNew (a : List Nat) : List (List Nat) → List (List Nat)
  | [] => [a]
  | b :: l => if a = b then b :: l else if strLt a b then a :: b :: l else b :: insertNew a l

/-- gemconvert.py:20-22 `unique`: `np.unique`, sorted. -/
def uniqueStr : List (List Nat) → List (List Nat)
  | [] => []
  | a :: l => insertNew a (uniqueStr l)

/-- A row of the codes file as read: SN, network, station, location, all text. -/
structure CodeRow where
  sn : List Nat
  network : List Nat
  station : List Nat
  location : List Nat
  deriving DecidableEq, Repr

/-- The arguments of one conversion (gemconvert.py:223-225). -/
structure ConvArgs where
  inputdir : List Nat
  sn : List Nat
  outputdir : List Nat
  format : List Nat
  lengthHours : Option (List Nat)
  network : List Nat
  station : List Nat
  location : List Nat
  deriving DecidableEq, Repr

/-- gemconvert.py:183-184: the first row whose `SN.astype(int)` is the number; outer `none`: ValueError, some SN in the
table is not a number. -/
def findRow (table : List CodeRow) (n : Int) : Option (Option CodeRow) :=
  if table.all fun r => (pyInt r.sn).isSome then some (table.find? fun r => pyInt r.sn = some n) else none

/-- gemconvert.py:182-189: the rows found for the serial numbers; `none`: ValueError. -/
def matchCodes (table : List CodeRow) : List (List Nat) → Option (List (List Nat × CodeRow))
  | [] => some []
  | sn :: l =>
    match pyInt sn with
    | none => none
    | some n =>
      match findRow table n with
      | none => none
      | some (some r) => (matchCodes table l).map fun m => (sn, r) :: m
      | some none => matchCodes table l

/-- What a call of `gemconvert` comes to. -/
inductive CliResult where
  | usage                                            -- a help message and exit
  | crash                                            -- an uncaught exception; nothing has been converted
  | listed (sns : List (List Nat))                   -- `-t`: the serial numbers are printed
  | run (jobs : List ConvArgs) (processes : Int)     -- conversions handed to the pool
  deriving DecidableEq, Repr

/-- The surroundings: directory listings (`none`: cannot be listed) and codes files (`none`: cannot be read). -/
structure CliEnv where
  listdir : List Nat → Option (List (List Nat))
  codes : List Nat → Option (List CodeRow)

/-- gemconvert.py:91. -/
def convertShort : List Nat := bytes "hdti:s:x:c:o:f:l:p:"

/-- gemconvert.py:91. -/
def convertLong : List (List Nat) := [bytes "inputdir=", bytes "serialnumber="]

/-- gemconvert.py:148-162: the serial numbers to convert. -/
def serialNumbers (o : CliOpts) (files : List (List Nat)) : List (List Nat) :=
  let l := match o.sns with
    | none => uniqueStr (files.map findSN)
    | some l => uniqueStr l
  l.filter fun i => i ∉ o.exclude

/-- gemconvert.py:201-226: the conversions, given serial numbers and codes. ProcessPoolExecutor raises ValueError if
`max_workers` is not positive. -/
def launch (o : CliOpts) (sns : List (List Nat × CodeRow)) : CliResult :=
  let outputdir := o.outputdir.getD (lower o.format)
  if o.test then .listed (sns.map Prod.fst)
  else if o.processes ≤ 0 then .crash
  else .run (sns.map fun s => ⟨o.inputdir, s.1, outputdir, o.format, o.lengthHours, s.2.network, s.2.station, s.2.location⟩)
    o.processes

/-- gemconvert.py:74-226 `main`. -/
def gemconvert (env : CliEnv) (argv : List (List Nat)) : CliResult :=
  match getopt convertShort convertLong argv with
  | none => .usage
  | some opts =>
    match applyOpts {} opts with
    | none => .usage
    | some o =>
      match env.listdir o.inputdir with
      | none => .usage
      | some files =>
        if o.sns = none ∧ files = [] ∧ opts = [] then .usage
        else
          let sns := serialNumbers o files
          match o.codes with
          | none => launch o (sns.map fun s => (s, ⟨[], [], [], []⟩))
          | some f =>
            match env.codes f with
            | none => .usage
            | some table =>
              match matchCodes table sns with
              | none => .crash
              | some m => launch o m

end Gemlog
