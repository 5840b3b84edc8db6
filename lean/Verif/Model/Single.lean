import Verif.Model.ReadGem
import Verif.Model.Cli

/-!
# Converting a single raw file

Models `_convert_one_file` (core.py:1528-1560) and the command `gemconvert_single` (gemconvert_single.py:25-60).
-/

namespace Gemlog

/-- core.py:1548-1558: the exception that leaves the function. -/
def rethrown (x : Exc) : Exc := if x = .noGPS then .noGPS else if x.isCorrupt then .corrupt else x

/-- core.py:1528-1558 `_convert_one_file` up to the output: the traces to be written. `file` is `none` if there is no such file. The
format version is not looked at: `_read_several` is called with its default. -/
def convertOne (env : Env) (file : Option Entry) (requireGps : Bool) : Except Exc (List Trace) :=
  match file with
  | none => .error (rethrown .missingRaw)                                                       -- 1530-1531
  | some f =>
    match readSeveral env.ops [f] "0.9" requireGps with                              -- 1532
    | .error x => .error (rethrown x)
    | .ok L =>
      if L.data = [] then .error (rethrown .noGPS)                                              -- 1541-1542
      else
        match L.header with
        | [] => .error .other
        | row :: _ =>                                                                -- 1533, 1544
          match interpTime env.spline (L.data.map fun p => (p.1, p.2, some (applyFit p.1 row.info))) with   -- 1546
          | .error x => .error (rethrown x)
          | .ok stream => .ok stream

/-- The last component of a path: what follows the last `/` (`os.path.split`). -/
def baseName (path : List Nat) : List Nat := (path.reverse.takeWhile fun c => c ≠ 47).reverse

/-- `os.path.splitext(path)[1][1:]`: what follows the last dot of the last component, unless only dots precede it. -/
def extensionOf (path : List Nat) : List Nat :=
  let b := baseName path
  let ext := (b.reverse.takeWhile fun c => c ≠ 46).reverse
  let stem := b.take (b.length - ext.length - 1)
  if 46 ∈ b ∧ stem.any (fun c => c ≠ 46) then ext else []

/-- core.py:1560-1561: the output file. -/
def singleName (input : List Nat) (output : Option (List Nat)) : List Nat := output.getD (baseName input ++ bytes ".mseed")

/-- What a call of `gemconvert_single` comes to. -/
inductive SingleResult where
  | help                                                             -- the help text, exit status 0
  | usage                                                            -- the help text, exit status 2
  | failed (x : Exc)                                                 -- the exception is printed; exit status 0
  | written (name format : List Nat) (stream : List Trace)           -- the stream is in the file, in that format
  deriving DecidableEq, Repr

/-- What a command depends on: the files by name, and the formats obspy can write. -/
structure SingleEnv where
  env : Env
  file : List Nat → Option Entry
  writable : List Nat → Bool

/-- core.py:1528-1561 `_convert_one_file(input_filename, output_filename, require_gps)`. obspy takes the format from the
extension of the name, and refuses empty streams and unknown formats. -/
def convertSingle (s : SingleEnv) (input : List Nat) (output : Option (List Nat)) (requireGps : Bool) : SingleResult :=
  match convertOne s.env (s.file input) requireGps with
  | .error x => .failed x
  | .ok stream =>
    let name := singleName input output
    let format := upper (extensionOf name)
    if stream = [] then .failed .other
    else if s.writable format then .written name format stream
    else .failed .other

/-- The settings of a run (gemconvert_single.py:28-30). -/
structure SingleOpts where
  input : List Nat := []
  output : Option (List Nat) := none
  force : Bool := false
  deriving DecidableEq, Repr

/-- gemconvert_single.py:37-47: one option; `none`: help is printed and the program ends. -/
def applySingle (o : SingleOpts) (oa : List Nat × List Nat) : Option SingleOpts :=
  if oa.1 ∈ [bytes "-h", bytes "--help"] then none
  else if oa.1 ∈ [bytes "-i", bytes "--input_file"] then some { o with input := oa.2 }
  else if oa.1 ∈ [bytes "-o", bytes "--output_file"] then some { o with output := some oa.2 }
  else if oa.1 ∈ [bytes "-f", bytes "--force_conversion"] then some { o with force := true }
  else some o

/-- gemconvert_single.py:37-47: all options in order. -/
def applySingles (o : SingleOpts) : List (List Nat × List Nat) → Option SingleOpts
  | [] => some o
  | x :: l =>
    match applySingle o x with
    | none => none
    | some o' => applySingles o' l

/-- gemconvert_single.py:32: the options given to `getopt`; there are no long ones. -/
def singleShort : List Nat := bytes "hfi:o:"

/-- gemconvert_single.py:25-60 `main`. -/
def gemconvertSingle (s : SingleEnv) (argv : List (List Nat)) : SingleResult :=
  match getopt singleShort [] argv with
  | none => .usage
  | some opts =>
    match applySingles {} opts with
    | none => .help
    | some o => convertSingle s o.input o.output (!o.force)

/-- The exit status of the command (gemconvert_single.py:34-40, 57-60). -/
def SingleResult.status : SingleResult → Nat
  | .help => 0
  | .usage => 2
  | .failed x => if x.isException then 0 else 1
  | .written _ _ _ => 0

end Gemlog
